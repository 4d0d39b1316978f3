import Verif.StoredBuffersLemmas

/-!
# C87: the buffers a user stores in a job

What the user expects is a map from ids to buffers (`Map`): adding gives the next id to the buffer, removing takes
it away.
-/

namespace SixTrack
open StoredBuf
open AssignList (ILLEGAL_ID MIN_USER_ID)

namespace StoredBuf

/-- The buffer that is stored for a gift, if `next` is the number of the next new buffer. -/
def Gift.buffer (next : Nat) : Gift → Option Nat
  | .create => some next
  | .move _ => some next
  | .cxx b _ => b
  | .unique b => b
  | .c99 b false _ => b
  | .c99 none true _ => none
  | .c99 (some _) true _ => some next

/-- Whether a new buffer is made for a gift. -/
def Gift.makes : Gift → Bool
  | .create => true
  | .move _ => true
  | .c99 (some _) true _ => true
  | _ => false

/-- Whether the job owns the stored buffer. -/
def Gift.owned : Gift → Bool
  | .create => true
  | .move _ => true
  | .c99 (some _) take _ => take
  | .cxx (some _) take => take
  | .unique (some _) => true
  | _ => false

/-- Whether the stored buffer is a C++ buffer. -/
def Gift.isCxx : Gift → Bool
  | .c99 (some _) false _ => false
  | _ => true

/-- What the user expects: `given` ids have been given out, `at_` is the buffer for an id. -/
structure Map where
  given : Nat
  at_ : Nat → Option Nat
  next : Nat

def Map.step (m : Map) : Op → Map
  | .add g =>
    ⟨m.given + 1, fun id => if id = 1024 + m.given then g.buffer m.next else m.at_ id,
      if g.makes then m.next + 1 else m.next⟩
  | .remove id => { m with at_ := fun id' => if id' = id then none else m.at_ id' }
  | .reserve _ => m
  | .clearOld => { m with given := 0, at_ := fun _ => none }

def Map.run (m : Map) : List Op → Map
  | [] => m
  | o :: os => (m.step o).run os

/-- Nothing is stored in the beginning. -/
def Map.new (n : Nat) : Map := ⟨0, fun _ => none, n⟩

/-- States of a job that are reached from a new one. -/
def Reached (j : Job) : Prop := ∃ n os, (Job.new n).run os = .ok j

/-- States of a device job that are reached from a new one. -/
def DevReached (d : Dev) : Prop := ∃ n os, (Dev.new n).run os = .ok d

/-- The user gives away only buffers that are there, and does not give away what the job owns already. -/
def Allowed (j : Job) : Op → Prop
  | .add (.cxx (some b) true) => j.alive b = true ∧ ∀ id, j.owns id = true → j.ptr id ≠ some b
  | .add (.unique (some b)) => j.alive b = true ∧ ∀ id, j.owns id = true → j.ptr id ≠ some b
  | .add (.c99 (some b) true true) => j.alive b = true ∧ ∀ id, j.owns id = true → j.ptr id ≠ some b
  | _ => True

/-- Every operation of a list is allowed when it is done. -/
def AllowedAll (j : Job) : List Op → Prop
  | [] => True
  | o :: os => Allowed j o ∧ ∀ j', j.step o = .ok j' → AllowedAll j' os

theorem Reached.good {j : Job} (h : Reached j) : Good j := by
  obtain ⟨n, os, h⟩ := h
  exact good_run os (good_new n) h

theorem construct_spec {j j' : Job} {g : Gift} {s : BStore.Store} (h : j.construct g = .ok (j', s)) :
    s.c99 = g.buffer j.next ∧ j'.next = (if g.makes then j.next + 1 else j.next) ∧
    s.ownsBuffer = g.owned ∧ s.cxx = (if g.isCxx then g.buffer j.next else none) := by
  cases g with
  | create => cases h; exact ⟨rfl, rfl, rfl, rfl⟩
  | move b => cases h; exact ⟨rfl, rfl, rfl, rfl⟩
  | cxx b take => cases b <;> cases take <;> cases h <;> exact ⟨rfl, rfl, rfl, rfl⟩
  | unique b => cases b <;> cases h <;> exact ⟨rfl, rfl, rfl, rfl⟩
  | c99 b take del =>
    cases b with
    | none => cases take <;> cases h <;> exact ⟨rfl, rfl, rfl, rfl⟩
    | some b =>
      cases take with
      | false => cases h; exact ⟨rfl, rfl, rfl, rfl⟩
      | true =>
        obtain ⟨j1, e, e'⟩ := Res.bind_eq_ok.1 (show (_ >>= _) = _ from h)
        cases e'
        cases del with
        | true => exact ⟨rfl, (free_slots (show j.fresh.free (some b) = .ok j' from e)).2.2.2.1, rfl, rfl⟩
        | false => cases e; exact ⟨rfl, rfl, rfl, rfl⟩

theorem add_spec {j j' : Job} {g : Gift} {id : Nat} (h : Good j) (e : j.add g = .ok (j', id)) :
    id = 1024 + j.slots.length ∧ j'.slots.length = j.slots.length + 1 ∧
    j'.next = (if g.makes then j.next + 1 else j.next) ∧
    (∀ id', j'.ptr id' = if id' = id then g.buffer j.next else j.ptr id') ∧
    j'.count = (if (g.buffer j.next).isSome then j.count + 1 else j.count) ∧
    j'.owns id = g.owned ∧ j'.ptrCxx id = (if g.isCxx then g.buffer j.next else none) := by
  have hg := good_add h e
  obtain ⟨⟨j1, s⟩, e1, e2⟩ := Res.bind_eq_ok.1 e
  obtain ⟨a1, a2, a3, a4⟩ := construct_slots e1
  obtain ⟨b1, b2, b3, b4⟩ := construct_spec e1
  have hid : id = 1024 + j.slots.length := by
    have : id = (j1.doAdd s).2 := by cases e2; rfl
    rw [this, ← a1]
    rfl
  have hj : j' = (j1.doAdd s).1 := by cases e2; rfl
  have hsl : j'.slots = j.slots ++ [s] := by rw [hj, ← a1]; rfl
  have hnum : j'.num = if s.active then j.num + 1 else j.num := by rw [hj, ← a2]; rfl
  have hst : s.active = true → j'.store id = some s := by
    intro ha
    rw [store_eq, hsl, hid, hnum, ha, if_pos (by constructor <;> simp [MIN_USER_ID])]
    simp [MIN_USER_ID]
  refine ⟨hid, by rw [hsl, List.length_append]; rfl, by rw [← b2, hj]; rfl, ?_, ?_, ?_, ?_⟩
  · intro id'
    rw [ptr_eq hg, ptr_eq h, hsl]
    by_cases hid' : id' = id
    · rw [if_pos hid', if_pos (by rw [hid', hid]; unfold MIN_USER_ID; omega), hid', hid,
        show 1024 + j.slots.length - MIN_USER_ID = j.slots.length from by unfold MIN_USER_ID; omega,
        List.getElem?_concat_length, ← b1]
      rfl
    · rw [if_neg hid']
      by_cases hm : MIN_USER_ID ≤ id'
      · rw [if_pos hm, if_pos hm]
        by_cases hlt : id' - MIN_USER_ID < j.slots.length
        · rw [List.getElem?_append_left hlt]
        · have : MIN_USER_ID = 1024 := rfl
          rw [List.getElem?_eq_none (by rw [List.length_append, List.length_singleton]; omega),
            List.getElem?_eq_none (by omega)]
      · rw [if_neg hm, if_neg hm]
  · show j'.num = if _ then j.num + 1 else j.num
    rw [hnum, ← b1]
    rfl
  · unfold Job.owns
    by_cases ha : s.active = true
    · rw [hst ha]
      exact b3
    · have hem := a4.inactive (by simpa using ha)
      have h1 : g.owned = false := by rw [← b3, hem]; rfl
      rw [h1, store_eq, hsl, hid]
      split_ifs
      · simp [MIN_USER_ID, hem, BStore.Store.empty, BStore.Store.ownsBuffer]
      · rfl
  · rw [← b4]
    unfold Job.ptrCxx
    by_cases ha : s.active = true
    · rw [hst ha]
    · have hem := a4.inactive (by simpa using ha)
      rw [store_eq, hsl, hid]
      split_ifs
      · simp [MIN_USER_ID, hem]
      · rw [hem]; rfl

/-- One operation does what the user expects. -/
theorem step_map {j j' : Job} {m : Map} {o : Op} (hg : Good j) (h1 : ∀ id, j.ptr id = m.at_ id)
    (h2 : j.slots.length = m.given) (h3 : j.next = m.next) (e : j.step o = .ok j') :
    (∀ id, j'.ptr id = (m.step o).at_ id) ∧ j'.slots.length = (m.step o).given ∧
      j'.next = (m.step o).next := by
  cases o with
  | add g =>
    obtain ⟨⟨j2, id⟩, e3, e4⟩ := Res.bind_eq_ok.1 e
    cases e4
    obtain ⟨c1, c2, c3, c4, -, -, -⟩ := add_spec hg e3
    refine ⟨fun id' => ?_, by rw [c2, h2]; rfl, by rw [c3, h3]; rfl⟩
    rw [c4 id', c1, h1, h2, h3]
    rfl
  | remove id =>
    obtain ⟨⟨j2, st⟩, e3, e4⟩ := Res.bind_eq_ok.1 e
    cases e4
    obtain ⟨-, c2, -, c4, -, -, -, -, c9, -, -⟩ := remove_spec hg e3
    refine ⟨fun id' => ?_, c2.trans h2, c4.trans h3⟩
    rw [c9 id', h1]
    rfl
  | reserve c =>
    cases e
    unfold Job.reserve
    split_ifs
    · exact ⟨h1, h2, h3⟩
    · exact ⟨h1, h2, h3⟩
  | clearOld =>
    have hg' := good_clear e
    obtain ⟨j2, e3, e4⟩ := Res.bind_eq_ok.1 e
    cases e4
    refine ⟨fun id' => ?_, rfl, (freeAll_slots _ e3).2.2.2.1.trans h3⟩
    rw [ptr_eq hg']
    simp only [List.getElem?_nil, Option.bind_none, ite_self]
    rfl

end StoredBuf

/-- For every history: the pointer for an id is the buffer the user expects, the number of stored buffers is that of
the ids that lead to a buffer, and the next id is one that has not been given out before. -/
theorem C87_history (n : Nat) (os : List Op) (j : Job) (h : (Job.new n).run os = .ok j) :
    (∀ id, j.ptr id = ((Map.new n).run os).at_ id) ∧
    j.count = ((List.range ((Map.new n).run os).given).filter
      (fun i => (((Map.new n).run os).at_ (1024 + i)).isSome)).length ∧
    (j.has = true ↔ ∃ id, ((Map.new n).run os).at_ id ≠ none) ∧
    ∀ g j' id, j.add g = .ok (j', id) → id = 1024 + ((Map.new n).run os).given := by
  have key : ∀ (os : List Op) (j j' : Job) (m : Map), Good j → (∀ id, j.ptr id = m.at_ id) →
      j.slots.length = m.given → j.next = m.next → j.run os = .ok j' →
      (∀ id, j'.ptr id = (m.run os).at_ id) ∧ j'.slots.length = (m.run os).given := by
    intro os
    induction os with
    | nil => intro j j' m _ h1 h2 _ e; cases e; exact ⟨h1, h2⟩
    | cons o os ih =>
      intro j j' m hg h1 h2 h3 e
      obtain ⟨j1, e1, e2⟩ := Res.bind_eq_ok.1 e
      obtain ⟨c1, c2, c3⟩ := step_map hg h1 h2 h3 e1
      exact ih j1 j' (m.step o) (good_step hg e1) c1 c2 c3 e2
  have hg := good_run os (good_new n) h
  obtain ⟨k1, k2⟩ := key os (Job.new n) j (Map.new n) (good_new n) (by
    intro id
    rw [ptr_eq (good_new n)]
    show (if _ then _ else _) = none
    split_ifs <;> rfl) rfl rfl h
  have hact : ∀ i, (((Map.new n).run os).at_ (1024 + i)).isSome =
      ((j.slots[i]?).map (fun s => s.active)).getD false := by
    intro i
    rw [← k1, ptr_eq hg, if_pos (by unfold MIN_USER_ID; omega),
      show 1024 + i - MIN_USER_ID = i from by unfold MIN_USER_ID; omega]
    cases j.slots[i]? <;> rfl
  refine ⟨k1, ?_, ?_, fun g j' id e => by rw [(add_spec hg e).1, k2]⟩
  · show j.num = _
    rw [hg.num, ← k2]
    simp only [hact]
    clear hact k1 k2 key h hg
    induction j.slots with
    | nil => rfl
    | cons s ss ih =>
      rw [List.countP_cons, List.length_cons, List.range_succ_eq_map, List.filter_cons, List.filter_map,
        ih]
      cases hs : s.active <;> simp [hs, Function.comp_def]
  · unfold Job.has
    rw [decide_eq_true_iff, hg.num, List.countP_pos_iff]
    constructor
    · rintro ⟨s, hs, ha⟩
      obtain ⟨i, hi, rfl⟩ := List.getElem_of_mem hs
      refine ⟨1024 + i, fun hc => ?_⟩
      have := hact i
      rw [hc, List.getElem?_eq_getElem hi] at this
      simp [ha] at this
    · rintro ⟨id, hid⟩
      rw [← k1, ptr_eq hg] at hid
      split_ifs at hid with hm
      · cases hs : j.slots[id - MIN_USER_ID]? with
        | none => rw [hs] at hid; exact absurd rfl hid
        | some s =>
          rw [hs] at hid
          exact ⟨s, List.mem_of_getElem? hs, (active_iff s).2 hid⟩
      · exact absurd rfl hid

/-- Adding: the id is larger than any that leads to a buffer, it leads to the given buffer (or to the new one that
has been made from it), and nothing else changes. -/
theorem C87_add {j j' : Job} (hr : Reached j) {g : Gift} {id : Nat} (e : j.add g = .ok (j', id)) :
    (∀ id', j.ptr id' ≠ none → id' < id) ∧ 1024 ≤ id ∧
    j'.ptr id = g.buffer j.next ∧ (∀ id', id' ≠ id → j'.ptr id' = j.ptr id') ∧
    j'.count = (if (g.buffer j.next).isSome then j.count + 1 else j.count) ∧
    j'.owns id = g.owned ∧ j'.ptrCxx id = (if g.isCxx then g.buffer j.next else none) := by
  obtain ⟨c1, c2, c3, c4, c5, c6, c7⟩ := add_spec hr.good e
  refine ⟨?_, by omega, by rw [c4, if_pos rfl], fun id' h => by rw [c4, if_neg h], c5, c6, c7⟩
  intro id' h
  rw [ptr_eq hr.good] at h
  split_ifs at h with hm
  · by_contra hc
    rw [List.getElem?_eq_none (by have : MIN_USER_ID = 1024 := rfl; omega)] at h
    exact h rfl
  · exact absurd rfl h

/-- Removing: it succeeds if the id leads to a buffer, afterwards it does not; the buffer is deleted if the job owns
it; the other ids and buffers stay as they are.  An id that does not lead to a buffer changes nothing. -/
theorem C87_remove {j j' : Job} (hr : Reached j) {id : Nat} {st : Int} (e : j.remove id = .ok (j', st)) :
    (j.ptr id ≠ none → st = SUCCESS ∧ j'.count + 1 = j.count) ∧ (j.ptr id = none → j' = j) ∧
    (∀ id', j'.ptr id' = if id' = id then none else j.ptr id') ∧
    (∀ id', id' ≠ id → j.ptr id' ≠ none → j'.owns id' = j.owns id' ∧ j'.ptrCxx id' = j.ptrCxx id') ∧
    (∀ b, j'.alive b = if j.owns id = true ∧ j.ptr id = some b then false else j.alive b) := by
  have hg := hr.good
  obtain ⟨hg', -, -, -, c5, -, c7, c8, c9, c10, c11⟩ := remove_spec hg e
  have hin : ∀ id, j.ptr id ≠ none → j.inRange id = true := by
    intro id h
    by_contra hc
    unfold Job.ptr Job.store at h
    rw [if_neg hc] at h
    exact h rfl
  refine ⟨fun h => ⟨c5.2 (hin id h), c8 h⟩, c7, c9, ?_, ?_⟩
  · intro id' hne hp
    have hp' : j'.ptr id' ≠ none := by rw [c9, if_neg hne]; exact hp
    obtain ⟨d1, d2, d3⟩ := (inRange_iff j id').1 (hin id' hp)
    have hst : j'.store id' = j.store id' := by
      have hn' : 0 < j'.num := by
        rw [ptr_eq hg', if_pos d2] at hp'
        cases hs : j'.slots[id' - MIN_USER_ID]? with
        | none => rw [hs] at hp'; exact absurd rfl hp'
        | some s =>
          rw [hs] at hp'
          exact num_pos hg' hs ((active_iff s).2 hp')
      rw [store_eq, store_eq, if_pos ⟨hn', d2⟩, if_pos ⟨d1, d2⟩, c10, if_neg]
      rintro ⟨x1, x2, -⟩
      omega
    unfold Job.owns Job.ptrCxx
    rw [hst]
    exact ⟨rfl, rfl⟩
  · intro b
    rw [c11]
    unfold Job.owns Job.ptr
    cases hs : j.store id with
    | none => simp
    | some s =>
      have hgs : GoodStore s := by
        rw [store_eq] at hs
        split_ifs at hs
        exact hg.st s (List.mem_of_getElem? hs)
      by_cases ho : s.own = some b
      · rw [if_pos (by simpa using ho), if_pos]
        exact ⟨by simp [BStore.Store.ownsBuffer, BStore.Store.active, ho, hgs.own b ho], hgs.own b ho⟩
      · rw [if_neg (by simpa using ho), if_neg]
        rintro ⟨x1, x2⟩
        simp only [BStore.Store.ownsBuffer, Bool.and_eq_true] at x1
        obtain ⟨c, hc⟩ := Option.isSome_iff_exists.1 x1.2
        have := hgs.own c hc
        simp only at x2
        rw [x2] at this
        cases this
        exact ho hc

namespace StoredBuf

/-- What the job owns exists, nothing is owned twice, and numbers of new buffers are new. -/
structure OwnInv (j : Job) : Prop where
  alive : ∀ (i : Nat) (s : BStore.Store) (b : Nat), j.slots[i]? = some s → s.own = some b → j.alive b = true
  one : ∀ (i k : Nat) (s t : BStore.Store) (b : Nat), j.slots[i]? = some s → j.slots[k]? = some t →
    s.own = some b → t.own = some b → i = k
  fresh : ∀ b, j.next ≤ b → j.alive b = false

theorem ownInv_new (n : Nat) : OwnInv (Job.new n) :=
  ⟨fun i s b h => by simp [Job.new] at h, fun i k s t b h => by simp [Job.new] at h,
    fun b h => by simpa [Job.new] using h⟩

/-- No slot owns the buffer. -/
def NotOwned (j : Job) (b : Nat) : Prop := ∀ (i : Nat) (s : BStore.Store), j.slots[i]? = some s → s.own ≠ some b

theorem notOwned_of {j : Job} (hg : Good j) {b : Nat} (h : ∀ id, j.owns id = true → j.ptr id ≠ some b) :
    NotOwned j b := by
  intro i s hs ho
  have hgs := hg.st s (List.mem_of_getElem? hs)
  have hc := hgs.own b ho
  have ha : s.active = true := (active_iff s).2 (by simp [hc])
  have hst : j.store (MIN_USER_ID + i) = some s := by
    rw [store_eq, if_pos ⟨num_pos hg hs ha, by omega⟩, Nat.add_sub_cancel_left, hs]
  refine h (MIN_USER_ID + i) ?_ ?_
  · unfold Job.owns; rw [hst]; simp [BStore.Store.ownsBuffer, ha, ho]
  · unfold Job.ptr; rw [hst]; exact hc

theorem ownInv_fresh {j : Job} (h : OwnInv j) :
    OwnInv j.fresh ∧ j.fresh.alive j.next = true ∧ NotOwned j.fresh j.next := by
  refine ⟨⟨?_, h.one, ?_⟩, ?_, ?_⟩
  · intro i s b hs ho
    show (if b = j.next then true else j.alive b) = true
    split_ifs
    · rfl
    · exact h.alive i s b hs ho
  · intro b hb
    have hb : j.next + 1 ≤ b := hb
    show (if b = j.next then true else j.alive b) = false
    rw [if_neg (by omega)]
    exact h.fresh b (by omega)
  · show (if j.next = j.next then true else _) = true
    rw [if_pos rfl]
  · intro i s hs ho
    have := h.alive i s _ hs ho
    rw [h.fresh _ (Nat.le_refl _)] at this
    exact absurd this (by decide)

theorem ownInv_free {j : Job} (h : OwnInv j) {b : Nat} (ha : j.alive b = true) (hn : NotOwned j b) :
    ∃ j', j.free (some b) = .ok j' ∧ OwnInv j' ∧ j'.slots = j.slots ∧ ∀ c, c ≠ b → j'.alive c = j.alive c := by
  refine ⟨{ j with alive := fun c => if c = b then false else j.alive c },
    by unfold Job.free; simp only; rw [if_pos ha], ⟨?_, h.one, ?_⟩, rfl, ?_⟩
  · intro i s c hs ho
    show (if c = b then false else j.alive c) = true
    rw [if_neg (by rintro rfl; exact hn i s hs ho)]
    exact h.alive i s c hs ho
  · intro c hc
    show (if c = b then false else j.alive c) = false
    split_ifs
    · rfl
    · exact h.fresh c hc
  · intro c hc
    show (if c = b then false else j.alive c) = _
    rw [if_neg hc]

theorem construct_own {j : Job} (hg : Good j) (h : OwnInv j) (g : Gift) (ha : Allowed j (.add g)) :
    ∃ j' s, j.construct g = .ok (j', s) ∧ OwnInv j' ∧
      ∀ b, s.own = some b → j'.alive b = true ∧ NotOwned j' b := by
  obtain ⟨f1, f2, f3⟩ := ownInv_fresh h
  have hnew : ∀ b, (owned j.next).own = some b → j.fresh.alive b = true ∧ NotOwned j.fresh b := by
    intro b hb
    cases hb
    exact ⟨f2, f3⟩
  cases g with
  | create => exact ⟨_, _, rfl, f1, hnew⟩
  | move b => exact ⟨_, _, rfl, f1, hnew⟩
  | cxx b take =>
    cases b with
    | none => exact ⟨_, _, rfl, h, fun b hb => by cases hb⟩
    | some b =>
      cases take with
      | false => exact ⟨_, _, rfl, h, fun b hb => by cases hb⟩
      | true =>
        refine ⟨_, _, rfl, h, fun c hc => ?_⟩
        cases hc
        exact ⟨ha.1, notOwned_of hg ha.2⟩
  | unique b =>
    cases b with
    | none => exact ⟨_, _, rfl, h, fun b hb => by cases hb⟩
    | some b =>
      refine ⟨_, _, rfl, h, fun c hc => ?_⟩
      cases hc
      exact ⟨ha.1, notOwned_of hg ha.2⟩
  | c99 b take del =>
    cases b with
    | none => exact ⟨_, _, rfl, h, fun b hb => by cases hb⟩
    | some b =>
      cases take with
      | false => exact ⟨_, _, rfl, h, fun b hb => by cases hb⟩
      | true =>
        cases del with
        | false => exact ⟨_, _, rfl, f1, hnew⟩
        | true =>
          have hne : j.next ≠ b := by
            rintro rfl
            have := ha.1
            rw [h.fresh _ (Nat.le_refl _)] at this
            exact absurd this (by decide)
          have hal : j.fresh.alive b = true := by
            show (if b = j.next then true else j.alive b) = true
            rw [if_neg hne.symm]; exact ha.1
          obtain ⟨j', e, k1, k2, k3⟩ := ownInv_free f1 hal
            (show NotOwned j.fresh b from notOwned_of hg ha.2)
          refine ⟨j', owned j.next, ?_, k1, ?_⟩
          · show (j.fresh.free (some b) >>= fun j' => .ok (j', owned j.next)) = _
            rw [e]; rfl
          · intro c hc
            cases hc
            refine ⟨by rw [k3 _ hne]; exact f2, ?_⟩
            intro i s hs
            rw [k2] at hs
            exact f3 i s hs

theorem freeAll_own : ∀ (ss : List BStore.Store) (j : Job),
    (∀ (i : Nat) (s : BStore.Store) (b : Nat), ss[i]? = some s → s.own = some b → j.alive b = true) →
    (∀ (i k : Nat) (s t : BStore.Store) (b : Nat), ss[i]? = some s → ss[k]? = some t → s.own = some b →
      t.own = some b → i = k) → ∃ j', j.freeAll ss = .ok j' := by
  intro ss
  induction ss with
  | nil => intro j _ _; exact ⟨j, rfl⟩
  | cons s ss ih =>
    intro j h1 h2
    have hf : ∃ j1, j.free s.own = .ok j1 := by
      cases ho : s.own with
      | none => exact ⟨j, rfl⟩
      | some b => exact ⟨_, by unfold Job.free; simp only; rw [if_pos (h1 0 s b rfl ho)]⟩
    obtain ⟨j1, e1⟩ := hf
    obtain ⟨-, -, -, -, a5⟩ := free_slots e1
    obtain ⟨j2, e2⟩ := ih j1
      (by
        intro i t b ht ho
        rw [a5, if_neg]
        · exact h1 (i + 1) t b (by simpa using ht) ho
        · intro hs
          have := h2 0 (i + 1) s t b rfl (by simpa using ht) hs ho
          omega)
      (by
        intro i k s' t b hs ht ho ho'
        have := h2 (i + 1) (k + 1) s' t b (by simpa using hs) (by simpa using ht) ho ho'
        omega)
    exact ⟨j2, by rw [Job.freeAll, e1]; exact e2⟩

theorem step_own {j : Job} (hg : Good j) (h : OwnInv j) (o : Op) (ha : Allowed j o) :
    ∃ j', j.step o = .ok j' ∧ OwnInv j' := by
  cases o with
  | add g =>
    obtain ⟨j1, s, e, k1, k2⟩ := construct_own hg h g ha
    refine ⟨(j1.doAdd s).1, ?_, ?_⟩
    · show ((j.construct g >>= fun r => .ok (r.1.doAdd r.2)) >>= fun r => .ok r.1) = _
      rw [e]; rfl
    · have hget : ∀ (i : Nat) (t : BStore.Store), (j1.slots ++ [s])[i]? = some t →
          j1.slots[i]? = some t ∨ (i = j1.slots.length ∧ t = s) := by
        intro i t ht
        by_cases hi : i < j1.slots.length
        · rw [List.getElem?_append_left hi] at ht; exact Or.inl ht
        · rw [List.getElem?_append_right (by omega)] at ht
          right
          obtain ⟨x1, x2⟩ := List.getElem?_eq_some_iff.1 ht
          rw [List.length_singleton] at x1
          exact ⟨by omega, by rw [← x2]; simp⟩
      refine ⟨?_, ?_, k1.fresh⟩
      · intro i t b ht ho
        rcases hget i t ht with ht | ⟨-, rfl⟩
        · exact k1.alive i t b ht ho
        · exact (k2 b ho).1
      · intro i k t u b ht hu ho ho'
        rcases hget i t ht with x | ⟨hi, x⟩ <;> rcases hget k u hu with y | ⟨hk, y⟩
        · exact k1.one i k t u b x y ho ho'
        · exact absurd ho ((k2 b (y ▸ ho')).2 i t x)
        · exact absurd ho' ((k2 b (x ▸ ho)).2 k u y)
        · omega
  | remove id =>
    have hex : ∃ r, j.remove id = .ok r := by
      unfold Job.remove
      by_cases hr : j.inRange id = true
      · rw [if_pos hr]
        obtain ⟨h1, h2, h3⟩ := (inRange_iff j id).1 hr
        rw [minId_eq h1]
        have hlt : id - MIN_USER_ID < j.slots.length := by omega
        have hs := List.getElem?_eq_getElem hlt
        rw [hs]
        simp only
        by_cases hac : (j.slots[id - MIN_USER_ID]).active = true
        · rw [if_pos hac]
          cases ho : (j.slots[id - MIN_USER_ID]).own with
          | none => exact ⟨_, rfl⟩
          | some b =>
            unfold Job.free
            simp only
            rw [if_pos (h.alive _ _ b hs ho)]
            exact ⟨_, rfl⟩
        · rw [if_neg hac]; exact ⟨_, rfl⟩
      · rw [if_neg hr]; exact ⟨_, rfl⟩
    obtain ⟨⟨j', st⟩, e⟩ := hex
    obtain ⟨-, c2, -, c4, -, -, -, -, -, c10, c11⟩ := remove_spec hg e
    refine ⟨j', by show (j.remove id >>= fun r => .ok r.1) = _; rw [e]; rfl, ?_⟩
    have hget : ∀ (i : Nat) (t : BStore.Store) (b : Nat), j'.slots[i]? = some t → t.own = some b →
        j.slots[i]? = some t ∧ ¬ (MIN_USER_ID ≤ id ∧ i = id - MIN_USER_ID) := by
      intro i t b ht ho
      have hlt : i < j.slots.length := by
        rw [← c2]; exact (List.getElem?_eq_some_iff.1 ht).1
      rw [c10] at ht
      split_ifs at ht with hc
      · cases ht; cases ho
      · exact ⟨ht, fun hh => hc ⟨hh.1, hh.2, hlt⟩⟩
    refine ⟨?_, ?_, ?_⟩
    · intro i t b ht ho
      obtain ⟨x1, x2⟩ := hget i t b ht ho
      rw [c11, if_neg]
      · exact h.alive i t b x1 ho
      · intro hs
        rw [store_eq] at hs
        split_ifs at hs with hc
        · cases hs' : j.slots[id - MIN_USER_ID]? with
          | none => rw [hs'] at hs; cases hs
          | some u =>
            rw [hs'] at hs
            exact x2 ⟨hc.2, h.one _ _ _ _ b x1 hs' ho hs⟩
        · cases hs
    · intro i k t u b ht hu ho ho'
      exact h.one i k t u b (hget i t b ht ho).1 (hget k u b hu ho').1 ho ho'
    · intro b hb
      rw [c11]
      split_ifs
      · rfl
      · exact h.fresh b (by omega)
  | reserve c =>
    refine ⟨_, rfl, ?_⟩
    unfold Job.reserve
    split_ifs
    · exact ⟨h.alive, h.one, h.fresh⟩
    · exact h
  | clearOld =>
    obtain ⟨j1, e⟩ := freeAll_own j.slots j h.alive h.one
    obtain ⟨-, -, -, a4, a5⟩ := freeAll_slots _ e
    refine ⟨{ j1 with slots := [], num := 0 }, ?_, ⟨fun i s b hs => by simp at hs,
      fun i k s t b hs => by simp at hs, ?_⟩⟩
    · show (j.freeAll j.slots >>= fun j' => .ok { j' with slots := [], num := 0 }) = _
      rw [e]; rfl
    · intro b hb
      by_contra hc
      have hc : j1.alive b = true := by simpa using hc
      have := ((a5 b).1 hc).1
      rw [h.fresh b (by rw [← a4]; exact hb)] at this
      exact absurd this (by decide)

end StoredBuf

/-- As long as the user gives away only what is there and not yet given away, everything is defined; what the job
owns exists, and no buffer is owned under two ids. -/
theorem C87_owned (n : Nat) (os : List Op) (ha : AllowedAll (Job.new n) os) :
    ∃ j, (Job.new n).run os = .ok j ∧
      (∀ id b, j.owns id = true → j.ptr id = some b → j.alive b = true) ∧
      ∀ id id' b, j.owns id = true → j.owns id' = true → j.ptr id = some b → j.ptr id' = some b → id = id' := by
  have key : ∀ (os : List Op) (j : Job), Good j → OwnInv j → AllowedAll j os →
      ∃ j', j.run os = .ok j' ∧ Good j' ∧ OwnInv j' := by
    intro os
    induction os with
    | nil => intro j h1 h2 _; exact ⟨j, rfl, h1, h2⟩
    | cons o os ih =>
      intro j h1 h2 h3
      obtain ⟨j1, e, k⟩ := step_own h1 h2 o h3.1
      obtain ⟨j', e', k'⟩ := ih j1 (good_step h1 e) k (h3.2 j1 e)
      exact ⟨j', by rw [Job.run, e]; exact e', k'⟩
  obtain ⟨j, e, hg, ho⟩ := key os _ (good_new n) (ownInv_new n) ha
  have hget : ∀ id b, j.owns id = true → j.ptr id = some b →
      ∃ s, MIN_USER_ID ≤ id ∧ j.slots[id - MIN_USER_ID]? = some s ∧ s.own = some b := by
    intro id b h1 h2
    unfold Job.owns at h1
    unfold Job.ptr at h2
    cases hs : j.store id with
    | none => rw [hs] at h1; cases h1
    | some s =>
      rw [hs] at h1 h2
      rw [store_eq] at hs
      split_ifs at hs with hc
      refine ⟨s, hc.2, hs, ?_⟩
      simp only [BStore.Store.ownsBuffer, Bool.and_eq_true] at h1
      obtain ⟨c, hc'⟩ := Option.isSome_iff_exists.1 h1.2
      have := (hg.st s (List.mem_of_getElem? hs)).own c hc'
      simp only at h2
      rw [h2] at this
      cases this
      exact hc'
  refine ⟨j, e, ?_, ?_⟩
  · intro id b h1 h2
    obtain ⟨s, -, hs, hb⟩ := hget id b h1 h2
    exact ho.alive _ s b hs hb
  · intro id id' b h1 h1' h2 h2'
    obtain ⟨s, x1, hs, hb⟩ := hget id b h1 h2
    obtain ⟨s', x1', hs', hb'⟩ := hget id' b h1' h2'
    have := ho.one _ _ s s' b hs hs' hb hb'
    omega

/-- A history with all kinds of gifts: buffers 0, 1, 2 and 3 are there in the beginning. -/
example : ∃ j, (Job.new 4).run [.add .create, .add (.cxx (some 0) false), .add (.c99 (some 1) true true),
      .add (.cxx (some 2) true), .remove 1025, .add (.c99 (some 3) false true), .remove 1027] = .ok j ∧
    j.ptr 1024 = some 4 ∧ j.ptr 1025 = none ∧ j.ptr 1026 = some 5 ∧ j.ptr 1027 = none ∧ j.ptr 1028 = some 3 ∧
    j.count = 3 ∧ j.owns 1026 = true ∧ j.owns 1028 = false ∧ j.ptrCxx 1028 = none ∧
    j.alive 0 = true ∧ j.alive 1 = false ∧ j.alive 2 = false ∧ j.alive 3 = true ∧ j.alive 4 = true :=
  ⟨_, rfl, by decide, by decide, by decide, by decide, by decide, by decide, by decide, by decide, by decide,
    by decide, by decide, by decide, by decide, by decide⟩

example : AllowedAll (Job.new 4) [.add .create, .add (.cxx (some 2) true), .remove 1025] := by
  refine ⟨trivial, fun j' h => ?_⟩
  cases h
  refine ⟨⟨by decide, ?_⟩, fun j' h => ?_⟩
  · intro id
    by_cases hid : id = 1024
    · subst hid; decide
    · intro _ hp
      rw [ptr_eq ⟨fun s hs => by
        rw [List.mem_singleton.1 hs]; exact goodStore_owned 4, rfl⟩] at hp
      split_ifs at hp with hm
      have hm : 1024 ≤ id := hm
      rw [List.getElem?_eq_none (by show 1 ≤ id - 1024; omega)] at hp
      cases hp
  · cases h
    exact ⟨trivial, fun _ _ => trivial⟩

namespace StoredBuf

theorem cap_step {j j' : Job} {o : Op} (h : j.slots.length ≤ j.cap) (e : j.step o = .ok j') :
    j'.slots.length ≤ j'.cap := by
  cases o with
  | add g =>
    obtain ⟨⟨j1, id⟩, e1, e2⟩ := Res.bind_eq_ok.1 e
    obtain ⟨⟨j2, s⟩, e3, e4⟩ := Res.bind_eq_ok.1 e1
    cases e2; cases e4
    obtain ⟨a1, -, a3, -⟩ := construct_slots e3
    show (j2.slots ++ [s]).length ≤ grown j2.cap j2.slots.length
    rw [List.length_append, a1]
    unfold grown
    show j.slots.length + 1 ≤ _
    split_ifs <;> omega
  | remove id =>
    obtain ⟨⟨j1, st⟩, e1, e2⟩ := Res.bind_eq_ok.1 e
    cases e2
    unfold Job.remove at e1
    split_ifs at e1
    · cases hs : j.slots[id - j.minId]? with
      | none => rw [hs] at e1; cases e1
      | some s =>
        rw [hs] at e1
        simp only at e1
        split_ifs at e1
        · obtain ⟨j2, e3, e4⟩ := Res.bind_eq_ok.1 e1
          cases e4
          have f := free_slots e3
          show (j2.slots.set _ _).length ≤ j2.cap
          rw [List.length_set, f.1]
          simp_all
        · cases e1; exact h
    · cases e1; exact h
  | reserve c =>
    cases e
    unfold Job.reserve
    split_ifs
    · exact Nat.le_trans h (Nat.le_max_left _ _)
    · exact h
  | clearOld =>
    obtain ⟨j1, e1, e2⟩ := Res.bind_eq_ok.1 e
    cases e2
    exact Nat.zero_le _

theorem Reached.cap {j : Job} (h : Reached j) : j.slots.length ≤ j.cap := by
  obtain ⟨n, os, h⟩ := h
  have key : ∀ (os : List Op) (j j' : Job), j.slots.length ≤ j.cap → j.run os = .ok j' →
      j'.slots.length ≤ j'.cap := by
    intro os
    induction os with
    | nil => intro j j' h e; cases e; exact h
    | cons o os ih =>
      intro j j' h e
      obtain ⟨j1, e1, e2⟩ := Res.bind_eq_ok.1 e
      exact ih j1 j' (cap_step h e1) e2
  exact key os _ j (Nat.zero_le _) h

end StoredBuf

/-- The capacity is enough for all slots.  When a buffer is added it stays as it is if there is a slot left, and is
doubled otherwise (from 0 to 1), so that few additions have to move the slots. -/
theorem C87_capacity {j j' : Job} (hr : Reached j) {g : Gift} {id : Nat} (e : j.add g = .ok (j', id)) :
    j.slots.length ≤ j.capacity ∧ j'.slots.length ≤ j'.capacity ∧
    (j.slots.length < j.capacity → j'.capacity = j.capacity) ∧
    (j.slots.length = j.capacity → j'.capacity = max 1 (2 * j.capacity)) := by
  have hc := hr.cap
  have hs : j.step (.add g) = .ok j' := by
    show j.add g >>= _ = _
    rw [e]; rfl
  obtain ⟨⟨j2, s⟩, e3, e4⟩ := Res.bind_eq_ok.1 e
  obtain ⟨a1, -, a3, -⟩ := construct_slots e3
  have hcap : j'.capacity = grown j2.cap j2.slots.length := by cases e4; rfl
  rw [a1] at hcap
  refine ⟨hc, cap_step hc hs, fun h => ?_, fun h => ?_⟩
  · rw [hcap, grown, if_pos (by simp_all [Job.capacity])]
    simp_all [Job.capacity]
  · unfold Job.capacity at h ⊢
    unfold Job.capacity at hcap
    rw [hcap, grown, if_neg (by simp_all)]
    split_ifs <;> omega

/-- Three additions need room for four. -/
example : ∃ j, (Job.new 0).run [.add .create, .add .create, .add .create] = .ok j ∧ j.capacity = 4 :=
  ⟨_, rfl, by decide⟩

/-- **C87 is false of the code**: reserving never gives more room, and fails whenever more is asked for. -/
theorem C87_reserve_violated :
    (∀ (j : Job) (c : Nat), (j.reserve c).1.capacity = j.capacity ∧
      ((j.reserve c).2 = SUCCESS ↔ c < j.capacity)) ∧
    ((Job.new 0).reserve 8).1.capacity = 0 ∧ ((Job.new 0).reserve 8).2 = FAILURE := by
  refine ⟨fun j c => ?_, by decide, by decide⟩
  unfold Job.reserve Job.capacity
  split_ifs with h
  · exact ⟨by simp; omega, by simp [h]⟩
  · exact ⟨rfl, by simp [h, SUCCESS, FAILURE]⟩

/-- The ids that lead to buffers are between the smallest and the largest id; without buffers both are illegal. -/
theorem C87_min_max (j : Job) :
    (∀ id, j.ptr id ≠ none → j.minId ≤ id ∧ id ≤ j.maxId) ∧
    (j.has = false → j.minId = ILLEGAL_ID ∧ j.maxId = ILLEGAL_ID) := by
  constructor
  · intro id hp
    have hr : j.inRange id = true := by
      by_contra hc
      unfold Job.ptr Job.store at hp
      rw [if_neg hc] at hp
      exact hp rfl
    obtain ⟨h1, h2, h3⟩ := (inRange_iff j id).1 hr
    unfold Job.maxId
    rw [if_pos (minId_ne.2 h1), minId_eq h1]
    exact ⟨h2, by omega⟩
  · intro hh
    have h1 : j.minId = ILLEGAL_ID := by unfold Job.minId; rw [hh]; rfl
    exact ⟨h1, by unfold Job.maxId; rw [if_neg (not_not_intro h1)]; exact h1⟩

/-- **C87 is false of the code**: the smallest and the largest id need not lead to a buffer. -/
theorem C87_min_max_violated :
    ∃ j, Reached j ∧ j.count = 1 ∧ j.ptr 1025 = some 1 ∧ j.minId = 1024 ∧ j.ptr 1024 = none ∧
      j.maxId = 1026 ∧ j.ptr 1026 = none :=
  ⟨_, ⟨0, [.add .create, .add .create, .add .create, .remove 1024, .remove 1026], rfl⟩, by decide, by decide,
    by decide, by decide, by decide, by decide⟩

/-- A buffer that is stored can be pushed and collected; an id that has not been given out cannot. -/
theorem C87_push_partial (n : Nat) (os : List Op) (j : Job) (h : (Job.new n).run os = .ok j) (id : Nat) :
    (j.ptr id ≠ none → j.push id = SUCCESS) ∧
    (id < 1024 ∨ 1024 + ((Map.new n).run os).given ≤ id → j.push id = FAILURE) := by
  constructor
  · intro hp
    unfold Job.ptr at hp
    unfold Job.push
    cases hs : j.store id with
    | none => rw [hs] at hp; exact absurd rfl hp
    | some s => rfl
  · intro hid
    have hlen : j.slots.length = ((Map.new n).run os).given := by
      have := (C87_history n os j h).2.2.2 (.cxx none false) _ _ rfl
      exact Nat.add_left_cancel this
    unfold Job.push
    rw [store_eq]
    have hm : MIN_USER_ID = 1024 := rfl
    split_ifs with hc
    · rw [List.getElem?_eq_none (by rw [hm] at hc ⊢; omega)]
    · rfl

/-- **C87 is false of the code**: pushing, collecting and removing a buffer that has been removed already succeeds,
as long as there is another one; with the last buffer gone the same calls fail. -/
theorem C87_removed_violated :
    (∃ j, Reached j ∧ j.ptr 1024 = none ∧ j.push 1024 = SUCCESS ∧ j.remove 1024 = .ok (j, SUCCESS)) ∧
    (∃ j, Reached j ∧ j.ptr 1024 = none ∧ j.push 1024 = FAILURE ∧ j.remove 1024 = .ok (j, FAILURE)) :=
  ⟨⟨_, ⟨0, [.add .create, .add .create, .remove 1024], rfl⟩, by decide, by decide, rfl⟩,
    ⟨_, ⟨0, [.add .create, .add .create, .remove 1024, .remove 1025], rfl⟩, by decide, by decide, rfl⟩⟩

/-- **C87 is false of the code**: a null pointer gets an id, which leads to nothing. -/
theorem C87_null_violated :
    ∃ j j', Reached j ∧ j.add (.c99 none true true) = .ok (j', 1025) ∧ j'.ptr 1025 = none ∧ j'.count = j.count ∧
      j'.push 1025 = SUCCESS :=
  ⟨_, _, ⟨0, [.add .create], rfl⟩, rfl, by decide, by decide, by decide⟩

namespace StoredBuf

/-- The arguments belong to the slots. -/
structure DevGood (d : Dev) : Prop where
  job : Good d.job
  args : ∀ (i : Nat) (s : BStore.Store), d.job.slots[i]? = some s → d.args[i]? = some s.c99

theorem devGood_new (n : Nat) : DevGood (Dev.new n) :=
  ⟨good_new n, fun i s h => by simp [Dev.new, Job.new] at h⟩

theorem DevGood.length {d : Dev} (h : DevGood d) : d.job.slots.length ≤ d.args.length := by
  by_contra hc
  have hlt : d.args.length < d.job.slots.length := by omega
  have := h.args d.args.length _ (List.getElem?_eq_getElem hlt)
  rw [List.getElem?_eq_none (Nat.le_refl _)] at this
  cases this

theorem target_eq {s : BStore.Store} (h : GoodStore s) : target s = s.c99 := by
  unfold target
  cases hc : s.cxx with
  | none => rfl
  | some b => exact (h.cxx b hc).symm

/-- Adding a store to a device job: with a buffer it is defined and the argument is made for this buffer; without,
it gives the illegal id, if it is defined. -/
theorem devAdd_spec {d : Dev} (h : DevGood d) {s : BStore.Store} (hs : GoodStore s) :
    (s.active = true → ∃ d', d.doAdd s = .ok (d', 1024 + d.job.slots.length) ∧ d'.job = (d.job.doAdd s).1 ∧
      DevGood d') ∧
    (s.active = false → (d.job.num = 0 → d.args.length ≤ d.job.slots.length → d.doAdd s = .ub) ∧
      ((0 < d.job.num ∨ d.job.slots.length < d.args.length) → ∃ d', d.doAdd s = .ok (d', ILLEGAL_ID) ∧
        d'.job = (d.job.doAdd s).1 ∧ DevGood d')) := by
  have hg := good_doAdd h.job hs
  have hid : (d.job.doAdd s).2 = 1024 + d.job.slots.length := rfl
  have hsl : (d.job.doAdd s).1.slots = d.job.slots ++ [s] := rfl
  have hmin : MIN_USER_ID = 1024 := rfl
  have hne : (d.job.doAdd s).2 ≠ ILLEGAL_ID := by rw [hid]; unfold ILLEGAL_ID; omega
  have hlen := h.length
  have hst : (d.job.doAdd s).1.store (1024 + d.job.slots.length) =
      if 0 < (d.job.doAdd s).1.num then some s else none := by
    rw [store_eq, hsl, hmin, Nat.add_sub_cancel_left, List.getElem?_concat_length]
    by_cases hn : 0 < (d.job.doAdd s).1.num
    · rw [if_pos hn, if_pos ⟨hn, by omega⟩]
    · rw [if_neg hn, if_neg (fun hh => hn hh.1)]
  -- the arguments after they have been made as many as there are slots
  have hpad : ∀ i, i < d.args.length → (d.args ++ List.replicate ((d.job.slots ++ [s]).length - d.args.length)
      (none : Option Nat))[i]? = d.args[i]? := fun i hi => List.getElem?_append_left hi
  have hpadlen : d.job.slots.length < (d.args ++ List.replicate ((d.job.slots ++ [s]).length - d.args.length)
      (none : Option Nat)).length := by
    rw [List.length_append, List.length_append, List.length_replicate, List.length_singleton]
    omega
  have hgood : ∀ (as : List (Option Nat)), (∀ i, i < d.job.slots.length → as[i]? = d.args[i]?) →
      as[d.job.slots.length]? = some s.c99 → DevGood ⟨(d.job.doAdd s).1, as⟩ := by
    intro as h1 h2
    refine ⟨hg, fun i t ht => ?_⟩
    have ht : (d.job.slots ++ [s])[i]? = some t := ht
    by_cases hi : i < d.job.slots.length
    · rw [List.getElem?_append_left hi] at ht
      show as[i]? = _
      rw [h1 i hi]
      exact h.args i t ht
    · rw [List.getElem?_append_right (by omega)] at ht
      obtain ⟨x1, x2⟩ := List.getElem?_eq_some_iff.1 ht
      rw [List.length_singleton] at x1
      have hi' : i = d.job.slots.length := by omega
      show as[i]? = _
      rw [hi', h2, ← x2]
      simp
  unfold Dev.doAdd
  simp only
  rw [if_pos hne, hid]
  unfold Dev.addImpl Dev.removeImpl
  simp only
  have hle : (1024 ≤ 1024 + d.job.slots.length) = True := by simp
  rw [hst, hsl, hmin]
  simp only [hle, if_true, Nat.add_sub_cancel_left]
  constructor
  · intro ha
    have hn : 0 < (d.job.doAdd s).1.num := by
      show 0 < if s.active then d.job.num + 1 else d.job.num
      rw [ha]; simp
    obtain ⟨b, hb⟩ := Option.isSome_iff_exists.1 (show s.c99.isSome = true from ha)
    rw [if_pos hn]
    simp only [target_eq hs, hb]
    rw [if_pos hpadlen]
    refine ⟨_, rfl, rfl, hgood _ ?_ ?_⟩
    · intro i hi
      rw [List.getElem?_set_ne (by omega)]
      exact hpad i (by omega)
    · rw [List.getElem?_set_self hpadlen, hb]
  · intro ha
    have hnum : (d.job.doAdd s).1.num = d.job.num := by
      show (if s.active then d.job.num + 1 else d.job.num) = _
      rw [ha]; simp
    have hc : s.c99 = none := by rw [hs.inactive ha]; rfl
    rw [hnum]
    constructor
    · intro h0 h1
      rw [h0, if_neg (by omega)]
      simp only [Res.ok_bind]
      rw [if_pos (by decide), if_neg (by omega)]
      rfl
    · intro hor
      by_cases hn : 0 < d.job.num
      · rw [if_pos hn]
        simp only [target_eq hs, hc, Res.ok_bind]
        rw [if_pos (by decide), if_pos hpadlen]
        refine ⟨_, rfl, rfl, hgood _ ?_ ?_⟩
        · intro i hi
          rw [List.getElem?_set_ne (by omega)]
          exact hpad i (by omega)
        · rw [List.getElem?_set_self hpadlen, hc]
      · have hlt : d.job.slots.length < d.args.length := by
          rcases hor with h0 | h0
          · exact absurd h0 hn
          · exact h0
        rw [if_neg hn]
        simp only [Res.ok_bind]
        rw [if_pos (by decide), if_pos hlt]
        refine ⟨_, rfl, rfl, hgood _ ?_ ?_⟩
        · intro i hi
          rw [List.getElem?_set_ne (by omega)]
        · rw [List.getElem?_set_self hlt, hc]

theorem devRemove_spec {d : Dev} (h : DevGood d) (id : Nat) :
    (1024 + d.args.length ≤ id → d.remove id = .ub) ∧
    (id < 1024 → d.remove id = .ok (d, FAILURE)) ∧
    (1024 ≤ id → id < 1024 + d.args.length → ∀ j st, d.job.remove id = .ok (j, st) →
      ∃ d', d.remove id = .ok (d', st) ∧ d'.job = j ∧ DevGood d') := by
  have hmin : MIN_USER_ID = 1024 := rfl
  refine ⟨?_, ?_, ?_⟩
  · intro hid
    unfold Dev.remove
    cases d.job.remove id with
    | ub => rfl
    | ok r =>
      rw [Res.ok_bind]
      unfold Dev.removeImpl
      simp only
      rw [hmin, if_pos (by omega), if_neg (by omega)]
      rfl
  · intro hid
    have : d.job.remove id = .ok (d.job, FAILURE) := by
      unfold Job.remove
      rw [if_neg]
      intro hc
      have := ((inRange_iff d.job id).1 hc).2.1
      omega
    unfold Dev.remove
    rw [this, Res.ok_bind]
    unfold Dev.removeImpl
    simp only
    rw [hmin, if_neg (by omega)]
    rfl
  · intro h1 h2 j st e
    obtain ⟨hg, c2, -, -, c5, c6, -, -, -, c10, -⟩ := remove_spec h.job e
    refine ⟨⟨j, d.args.set (id - 1024) none⟩, ?_, rfl, hg, ?_⟩
    · unfold Dev.remove
      rw [e, Res.ok_bind]
      unfold Dev.removeImpl
      simp only
      rw [hmin, if_pos h1, if_pos (by omega), Res.ok_bind]
      rcases c6 with rfl | rfl <;> rfl
    · intro i s hs
      have hi : i < d.job.slots.length := by rw [← c2]; exact (List.getElem?_eq_some_iff.1 hs).1
      have hs : j.slots[i]? = some s := hs
      rw [c10, hmin] at hs
      show (d.args.set (id - 1024) none)[i]? = _
      split_ifs at hs with hc
      · cases hs
        rw [hc.2.1, List.getElem?_set_self (by omega)]
        rfl
      · rw [List.getElem?_set_ne (fun hx => hc ⟨h1, hx.symm, hi⟩)]
        exact h.args i s hs

theorem devGood_step {d d' : Dev} {o : Op} (h : DevGood d) (e : d.step o = .ok d') : DevGood d' := by
  cases o with
  | add g =>
    obtain ⟨⟨d1, id⟩, e1, e2⟩ := Res.bind_eq_ok.1 e
    cases e2
    obtain ⟨⟨j, s⟩, e3, e4⟩ := Res.bind_eq_ok.1 e1
    obtain ⟨a1, a2, -, a4⟩ := construct_slots e3
    have h' : DevGood { d with job := j } := by
      refine ⟨good_of_eq h.job a1 a2, ?_⟩
      show ∀ i s, j.slots[i]? = some s → _
      rw [a1]
      exact h.args
    obtain ⟨k1, k2⟩ := devAdd_spec h' a4
    simp only at e4
    cases ha : s.active with
    | true =>
      obtain ⟨d2, x1, -, x3⟩ := k1 ha
      rw [x1] at e4
      cases e4
      exact x3
    | false =>
      obtain ⟨k3, k4⟩ := k2 ha
      by_cases hu : j.num = 0 ∧ d.args.length ≤ j.slots.length
      · rw [k3 hu.1 hu.2] at e4
        cases e4
      · obtain ⟨d2, x1, -, x3⟩ := k4 (show 0 < j.num ∨ j.slots.length < d.args.length by omega)
        rw [x1] at e4
        cases e4
        exact x3
  | remove id =>
    obtain ⟨⟨d1, st⟩, e1, e2⟩ := Res.bind_eq_ok.1 e
    cases e2
    obtain ⟨k1, k2, k3⟩ := devRemove_spec h id
    by_cases hid : id < 1024
    · rw [k2 hid] at e1
      cases e1
      exact h
    · by_cases hid' : 1024 + d.args.length ≤ id
      · rw [k1 hid'] at e1
        cases e1
      · cases hj : d.job.remove id with
        | ub => unfold Dev.remove at e1; rw [hj] at e1; cases e1
        | ok r =>
          obtain ⟨d2, x1, -, x3⟩ := k3 (by omega) (by omega) r.1 r.2 hj
          rw [x1] at e1
          cases e1
          exact x3
  | reserve c =>
    cases e
    refine ⟨good_reserve h.job c, ?_⟩
    have : (d.job.reserve c).1.slots = d.job.slots := by
      unfold Job.reserve
      split_ifs <;> rfl
    show ∀ i s, (d.job.reserve c).1.slots[i]? = some s → _
    rw [this]
    exact h.args
  | clearOld =>
    obtain ⟨j, e1, e2⟩ := Res.bind_eq_ok.1 e
    cases e2
    refine ⟨good_clear e1, ?_⟩
    obtain ⟨j1, -, e3⟩ := Res.bind_eq_ok.1 e1
    cases e3
    intro i s hs
    simp at hs

theorem DevReached.good {d : Dev} (h : DevReached d) : DevGood d := by
  obtain ⟨n, os, h⟩ := h
  have key : ∀ (os : List Op) (d d' : Dev), DevGood d → d.run os = .ok d' → DevGood d' := by
    intro os
    induction os with
    | nil => intro d d' h e; cases e; exact h
    | cons o os ih =>
      intro d d' h e
      obtain ⟨d1, e1, e2⟩ := Res.bind_eq_ok.1 e
      exact ih d1 d' (devGood_step h e1) e2
  exact key os _ d (devGood_new n) h

end StoredBuf

/-- For every history of a device job which is defined: an id leads to the argument that has been made for its
buffer, and pushing and collecting transfer between exactly these two; they fail for all other ids. -/
theorem C87_device {d : Dev} (h : DevReached d) (id : Nat) :
    d.arg id = d.job.ptr id ∧ d.transfer id = (d.job.ptr id).map (fun b => (b, b)) := by
  have hg := h.good
  have harg : d.arg id = d.job.ptr id := by
    have hcond : (d.job.minId ≠ ILLEGAL_ID && id ≠ ILLEGAL_ID && d.job.minId ≤ id && id < d.job.maxId + 1) =
        d.job.inRange id := by
      unfold Job.inRange
      by_cases hm : d.job.minId ≠ ILLEGAL_ID
      · unfold Job.maxId
        rw [if_pos hm]
        have hlen : 0 < d.job.slots.length := by
          have := minId_ne.1 hm
          rw [hg.job.num, List.countP_pos_iff] at this
          obtain ⟨s, hs, -⟩ := this
          exact List.length_pos_of_mem hs
        rw [show d.job.minId + d.job.slots.length - 1 + 1 = d.job.minId + d.job.slots.length from by omega]
      · simp [hm]
    unfold Dev.arg
    rw [hcond]
    unfold Job.ptr Job.store
    split_ifs with hr
    · obtain ⟨h1, h2, h3⟩ := (inRange_iff d.job id).1 hr
      rw [minId_eq h1]
      have hlt : id - MIN_USER_ID < d.job.slots.length := by omega
      have hs := List.getElem?_eq_getElem hlt
      rw [hg.args _ _ hs, hs]
      rfl
    · rfl
  refine ⟨harg, ?_⟩
  unfold Dev.transfer
  rw [harg]
  unfold Job.ptr
  cases hs : d.job.store id with
  | none => rfl
  | some s =>
    have hgs : GoodStore s := by
      rw [store_eq] at hs
      split_ifs at hs
      exact hg.job.st s (List.mem_of_getElem? hs)
    cases hc : s.c99 with
    | none => simp only [hc]; rfl
    | some b =>
      simp only [target_eq hgs, hc]
      rfl

/-- A device job does with its buffers what a job on the host does: adding a buffer is defined if it is so on the
host and gives the same id.  Without a buffer, the illegal id is given. -/
theorem C87_device_add {d : Dev} (h : DevReached d) (g : Gift) (j : Job) (id : Nat)
    (e : d.job.add g = .ok (j, id)) :
    (g.buffer d.job.next ≠ none → ∃ d', d.add g = .ok (d', id) ∧ d'.job = j) ∧
    (g.buffer d.job.next = none → d.job.has = true → ∃ d', d.add g = .ok (d', ILLEGAL_ID) ∧ d'.job = j) := by
  obtain ⟨⟨j1, s⟩, e1, e2⟩ := Res.bind_eq_ok.1 e
  obtain ⟨a1, a2, -, a4⟩ := construct_slots e1
  obtain ⟨b1, -, -, -⟩ := construct_spec e1
  have hj : (j1.doAdd s).1 = j := by cases e2; rfl
  have hid : 1024 + j1.slots.length = id := by
    have : (j1.doAdd s).2 = id := by cases e2; rfl
    exact this
  have hg := h.good
  have h' : DevGood { d with job := j1 } := by
    refine ⟨good_of_eq hg.job a1 a2, ?_⟩
    show ∀ i s, j1.slots[i]? = some s → _
    rw [a1]
    exact hg.args
  obtain ⟨k1, k2⟩ := devAdd_spec h' a4
  have hadd : d.add g = Dev.doAdd { d with job := j1 } s := by
    unfold Dev.add
    rw [e1]
    rfl
  rw [hadd, ← b1]
  constructor
  · intro hb
    obtain ⟨d', x1, x2, -⟩ := k1 ((active_iff s).2 hb)
    exact ⟨d', by rw [x1, ← hid], x2.trans hj⟩
  · intro hb hh
    have hn : 0 < j1.num := by rw [a2]; simpa [Job.has] using hh
    obtain ⟨d', x1, x2, -⟩ := (k2 (by unfold BStore.Store.active; rw [hb]; rfl)).2 (Or.inl hn)
    exact ⟨d', x1, x2.trans hj⟩

/-- Removing the buffer of an id that has been given out is as on the host. -/
theorem C87_device_remove_partial {d : Dev} (h : DevReached d) (id : Nat) (hid : d.job.ptr id ≠ none) (j : Job)
    (st : Int) (e : d.job.remove id = .ok (j, st)) :
    ∃ d', d.remove id = .ok (d', SUCCESS) ∧ d'.job = j ∧ d'.arg id = none ∧ ∀ id', id' ≠ id →
      d'.arg id' = d.arg id' := by
  have hg := h.good
  have hr : d.job.inRange id = true := by
    by_contra hc
    unfold Job.ptr Job.store at hid
    rw [if_neg hc] at hid
    exact hid rfl
  obtain ⟨h1, h2, h3⟩ := (inRange_iff d.job id).1 hr
  have hlen := hg.length
  have hmin : MIN_USER_ID = 1024 := rfl
  obtain ⟨d', x1, x2, x3⟩ := (devRemove_spec hg id).2.2 (by omega) (by omega) j st e
  obtain ⟨-, -, -, -, c5, -, -, -, c9, -, -⟩ := remove_spec hg.job e
  have hst : st = SUCCESS := c5.2 hr
  have hreach : DevReached d' := by
    obtain ⟨n, os, ho⟩ := h
    refine ⟨n, os ++ [.remove id], ?_⟩
    have app : ∀ (os : List Op) (d0 d1 : Dev), d0.run os = .ok d1 → d0.run (os ++ [.remove id]) =
        d1.step (.remove id) := by
      intro os
      induction os with
      | nil =>
        intro d0 d1 e0
        cases e0
        rw [List.nil_append, Dev.run]
        cases d0.step (.remove id) <;> rfl
      | cons o os ih =>
        intro d0 d1 e0
        obtain ⟨d2, y1, y2⟩ := Res.bind_eq_ok.1 e0
        rw [List.cons_append, Dev.run, y1, Res.ok_bind]
        exact ih d2 d1 y2
    rw [app os _ d ho]
    show (d.remove id >>= fun r => .ok r.1) = _
    rw [x1]
    rfl
  refine ⟨d', by rw [x1, hst], x2, ?_, fun id' hne => ?_⟩
  · rw [(C87_device hreach id).1, x2, c9, if_pos rfl]
  · rw [(C87_device hreach id').1, (C87_device h id').1, x2, c9, if_neg hne]

example : ∃ d, DevReached d ∧ d.arg 1024 = some 1 ∧ d.arg 1025 = none ∧ d.arg 1026 = some 0 ∧
    d.transfer 1026 = some (0, 0) ∧ d.transfer 1025 = none ∧ d.job.count = 2 :=
  ⟨_, ⟨1, [.add .create, .add (.c99 none false true), .add (.c99 (some 0) false true)], rfl⟩, by decide, by decide,
    by decide, by decide, by decide, by decide⟩

/-- **C87 is false of the code**: removing from a device job with an id that has not been given out is undefined: an
argument which does not exist is reset. -/
theorem C87_device_remove_violated :
    (∀ d, DevReached d → ∀ id, 1024 + d.args.length ≤ id → d.remove id = .ub) ∧
    (∀ n, DevReached (Dev.new n) ∧ (Dev.new n).remove 1024 = .ub ∧
      ∃ j, (Dev.new n).job.remove 1024 = .ok (j, FAILURE)) :=
  ⟨fun _ h id hid => (devRemove_spec h.good id).1 hid, fun n => ⟨⟨n, [], rfl⟩,
    (devRemove_spec (devGood_new n) 1024).1 (Nat.le_refl _), _, rfl⟩⟩

/-- **C87 is false of the code**: adding a null pointer to a device job without buffers is undefined. -/
theorem C87_device_null_violated (n : Nat) :
    (Dev.new n).add (.c99 none false true) = .ub ∧
    ∃ d, DevReached d ∧ d.job.count = 0 ∧ d.args = [none] ∧ d.add (.c99 none false true) = .ub :=
  ⟨rfl, _, ⟨0, [.add .create, .remove 1024], rfl⟩, rfl, rfl, rfl⟩

end SixTrack
