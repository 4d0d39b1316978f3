import Verif.StoredBuffers
import Mathlib.Tactic.SplitIfs
import Mathlib.Tactic.ByContra
import Mathlib.Data.List.Basic

/-!
# Lemmas about stored buffers
-/

namespace SixTrack.StoredBuf
open SixTrack.BStore
open SixTrack.AssignList (ILLEGAL_ID MIN_USER_ID)

/-- The pointers of a store fit together. -/
structure GoodStore (s : Store) : Prop where
  own : ∀ b, s.own = some b → s.c99 = some b
  cxx : ∀ b, s.cxx = some b → s.c99 = some b

/-- The slots and the counter fit together. -/
structure Good (j : Job) : Prop where
  st : ∀ s ∈ j.slots, GoodStore s
  num : j.num = j.slots.countP (fun s => s.active)

theorem goodStore_empty : GoodStore Store.empty := ⟨fun _ h => (by cases h), fun _ h => (by cases h)⟩

theorem goodStore_owned (b : Nat) : GoodStore (owned b) := ⟨fun _ h => h, fun _ h => h⟩

theorem active_empty : Store.empty.active = false := rfl

theorem active_iff (s : Store) : s.active = true ↔ s.c99 ≠ none := by
  unfold Store.active
  cases s.c99 <;> simp

theorem GoodStore.inactive {s : Store} (h : GoodStore s) (ha : s.active = false) : s = Store.empty := by
  obtain ⟨c, p, o⟩ := s
  unfold Store.active at ha
  simp only [Option.isSome_eq_false_iff, Option.isNone_iff_eq_none] at ha
  subst ha
  unfold Store.empty
  congr
  · cases c with
    | none => rfl
    | some b => exact absurd (h.cxx b rfl) (by simp)
  · cases o with
    | none => rfl
    | some b => exact absurd (h.own b rfl) (by simp)

theorem good_new (n : Nat) : Good (Job.new n) := ⟨fun _ h => (by cases h), rfl⟩

theorem free_slots {j j' : Job} {o : Option Nat} (h : j.free o = .ok j') :
    j'.slots = j.slots ∧ j'.num = j.num ∧ j'.cap = j.cap ∧ j'.next = j.next ∧
      ∀ b, j'.alive b = if o = some b then false else j.alive b := by
  cases o with
  | none =>
    cases h
    exact ⟨rfl, rfl, rfl, rfl, fun b => by simp⟩
  | some c =>
    unfold Job.free at h
    simp only at h
    split_ifs at h with ha
    cases h
    refine ⟨rfl, rfl, rfl, rfl, fun b => ?_⟩
    by_cases hb : b = c
    · subst hb; simp
    · rw [if_neg (by simpa using fun h => hb h.symm)]
      simp [hb]

theorem freeAll_slots (ss : List Store) : ∀ {j j' : Job}, j.freeAll ss = .ok j' →
    j'.slots = j.slots ∧ j'.num = j.num ∧ j'.cap = j.cap ∧ j'.next = j.next ∧
      ∀ b, (j'.alive b = true → j.alive b = true ∧ ∀ s ∈ ss, s.own ≠ some b) ∧
        (j.alive b = true → (∀ s ∈ ss, s.own ≠ some b) → j'.alive b = true) := by
  induction ss with
  | nil =>
    intro j j' h
    cases h
    exact ⟨rfl, rfl, rfl, rfl, fun b => ⟨fun h => ⟨h, by simp⟩, fun h _ => h⟩⟩
  | cons s ss ih =>
    intro j j' h
    obtain ⟨j1, e, e'⟩ := Res.bind_eq_ok.1 h
    obtain ⟨a1, a2, a3, a4, a5⟩ := free_slots e
    obtain ⟨b1, b2, b3, b4, b5⟩ := ih e'
    refine ⟨b1.trans a1, b2.trans a2, b3.trans a3, b4.trans a4, fun b => ⟨fun hb => ?_, fun hb hn => ?_⟩⟩
    · obtain ⟨c1, c2⟩ := (b5 b).1 hb
      rw [a5 b] at c1
      split_ifs at c1 with ho
      refine ⟨c1, ?_⟩
      intro t ht
      rcases List.mem_cons.1 ht with rfl | ht
      · exact ho
      · exact c2 t ht
    · refine (b5 b).2 ?_ fun t ht => hn t (List.mem_cons_of_mem _ ht)
      rw [a5 b, if_neg (hn s List.mem_cons_self)]
      exact hb

/-- What constructing a store does to the job. -/
theorem construct_slots {j j' : Job} {s : Store} {g : Gift} (h : j.construct g = .ok (j', s)) :
    j'.slots = j.slots ∧ j'.num = j.num ∧ j'.cap = j.cap ∧ GoodStore s := by
  cases g with
  | create =>
    cases h
    exact ⟨rfl, rfl, rfl, goodStore_owned _⟩
  | cxx b take =>
    cases b with
    | none => cases h; exact ⟨rfl, rfl, rfl, goodStore_empty⟩
    | some b =>
      cases h
      refine ⟨rfl, rfl, rfl, ?_⟩
      cases take with
      | true => exact goodStore_owned _
      | false => exact ⟨fun _ h => (by cases h), fun _ h => h⟩
  | c99 b take del =>
    cases b with
    | none => cases h; exact ⟨rfl, rfl, rfl, goodStore_empty⟩
    | some b =>
      cases take with
      | true =>
        obtain ⟨j1, e, e'⟩ := Res.bind_eq_ok.1 (show (_ >>= _) = _ from h)
        cases e'
        cases del with
        | true =>
          obtain ⟨a1, a2, a3, -, -⟩ := free_slots (show j.fresh.free (some b) = .ok j' from e)
          exact ⟨a1, a2, a3, goodStore_owned _⟩
        | false =>
          cases e
          exact ⟨rfl, rfl, rfl, goodStore_owned _⟩
      | false =>
        cases h
        exact ⟨rfl, rfl, rfl, ⟨fun _ h => (by cases h), fun _ h => (by cases h)⟩⟩
  | unique b =>
    cases b with
    | none => cases h; exact ⟨rfl, rfl, rfl, goodStore_empty⟩
    | some b => cases h; exact ⟨rfl, rfl, rfl, goodStore_owned _⟩
  | move b =>
    cases h
    exact ⟨rfl, rfl, rfl, goodStore_owned _⟩

theorem good_doAdd {j : Job} {s : Store} (h : Good j) (hs : GoodStore s) : Good (j.doAdd s).1 := by
  refine ⟨?_, ?_⟩
  · intro t ht
    rcases List.mem_append.1 ht with ht | ht
    · exact h.st t ht
    · rw [List.mem_singleton.1 ht]; exact hs
  · show (if s.active then j.num + 1 else j.num) = (j.slots ++ [s]).countP _
    rw [List.countP_append, List.countP_singleton, h.num]
    cases s.active <;> simp

theorem good_of_eq {j j' : Job} (h : Good j) (e1 : j'.slots = j.slots) (e2 : j'.num = j.num) : Good j' :=
  ⟨by rw [e1]; exact h.st, by rw [e1, e2]; exact h.num⟩

theorem good_add {j j' : Job} {g : Gift} {id : Nat} (h : Good j) (e : j.add g = .ok (j', id)) : Good j' := by
  obtain ⟨⟨j1, s⟩, e1, e2⟩ := Res.bind_eq_ok.1 e
  obtain ⟨a1, a2, -, a4⟩ := construct_slots e1
  have := good_doAdd (good_of_eq h a1 a2) a4
  rw [show j' = (j1.doAdd s).1 from by cases e2; rfl]
  exact this

theorem minId_ne {j : Job} : j.minId ≠ ILLEGAL_ID ↔ 0 < j.num := by
  unfold Job.minId Job.has ILLEGAL_ID MIN_USER_ID
  by_cases h : 0 < j.num <;> simp [h]

theorem minId_eq {j : Job} (h : 0 < j.num) : j.minId = MIN_USER_ID := by
  unfold Job.minId Job.has
  simp [h]

theorem inRange_iff (j : Job) (id : Nat) :
    j.inRange id = true ↔ 0 < j.num ∧ MIN_USER_ID ≤ id ∧ id < MIN_USER_ID + j.slots.length := by
  unfold Job.inRange
  simp only [Bool.and_eq_true, decide_eq_true_iff, ne_eq]
  constructor
  · rintro ⟨⟨⟨h1, -⟩, h2⟩, h3⟩
    have hn := minId_ne.1 h1
    rw [minId_eq hn] at h2 h3
    exact ⟨hn, h2, h3⟩
  · rintro ⟨hn, h2, h3⟩
    refine ⟨⟨⟨minId_ne.2 hn, ?_⟩, ?_⟩, ?_⟩
    · unfold ILLEGAL_ID; unfold MIN_USER_ID at h2; omega
    · rw [minId_eq hn]; exact h2
    · rw [minId_eq hn]; exact h3

theorem store_eq (j : Job) (id : Nat) :
    j.store id = if 0 < j.num ∧ MIN_USER_ID ≤ id then j.slots[id - MIN_USER_ID]? else none := by
  unfold Job.store
  by_cases h : j.inRange id = true
  · obtain ⟨h1, h2, h3⟩ := (inRange_iff j id).1 h
    rw [if_pos h, if_pos ⟨h1, h2⟩, minId_eq h1]
  · rw [if_neg h]
    by_cases h' : 0 < j.num ∧ MIN_USER_ID ≤ id
    · rw [if_pos h']
      symm
      rw [List.getElem?_eq_none_iff]
      by_contra hc
      exact h ((inRange_iff j id).2 ⟨h'.1, h'.2, by omega⟩)
    · rw [if_neg h']

theorem num_pos {j : Job} (h : Good j) {i : Nat} {s : Store} (hs : j.slots[i]? = some s)
    (ha : s.active = true) : 0 < j.num := by
  rw [h.num, List.countP_pos_iff]
  exact ⟨s, List.mem_of_getElem? hs, ha⟩

/-- The pointer for an id. -/
theorem ptr_eq {j : Job} (h : Good j) (id : Nat) :
    j.ptr id = if MIN_USER_ID ≤ id then (j.slots[id - MIN_USER_ID]?).bind (fun s => s.c99) else none := by
  unfold Job.ptr
  rw [store_eq]
  by_cases h1 : MIN_USER_ID ≤ id
  · rw [if_pos h1]
    cases hs : j.slots[id - MIN_USER_ID]? with
    | none => simp
    | some s =>
      by_cases hn : 0 < j.num
      · rw [if_pos ⟨hn, h1⟩]; rfl
      · rw [if_neg (fun hh => hn hh.1)]
        cases hc : s.c99 with
        | none => simp [hc]
        | some b =>
          exact absurd (num_pos h hs ((active_iff s).2 (by simp [hc]))) hn
  · rw [if_neg h1, if_neg (fun hh => h1 hh.2)]

/-- What removing does. -/
theorem remove_spec {j j' : Job} {id : Nat} {st : Int} (h : Good j) (e : j.remove id = .ok (j', st)) :
    Good j' ∧ j'.slots.length = j.slots.length ∧ j'.cap = j.cap ∧ j'.next = j.next ∧
    (st = SUCCESS ↔ j.inRange id = true) ∧ (st = SUCCESS ∨ st = FAILURE) ∧
    (j.ptr id = none → j' = j) ∧
    (j.ptr id ≠ none → j'.num + 1 = j.num) ∧
    (∀ id', j'.ptr id' = if id' = id then none else j.ptr id') ∧
    (∀ i, j'.slots[i]? = if MIN_USER_ID ≤ id ∧ i = id - MIN_USER_ID ∧ i < j.slots.length then some Store.empty
      else j.slots[i]?) ∧
    (∀ b, j'.alive b = if (j.store id).bind (fun s => s.own) = some b then false else j.alive b) := by
  unfold Job.remove at e
  by_cases hr : j.inRange id = true
  · rw [if_pos hr] at e
    obtain ⟨h1, h2, h3⟩ := (inRange_iff j id).1 hr
    rw [minId_eq h1] at e
    have hlt : id - MIN_USER_ID < j.slots.length := by omega
    have hs : j.slots[id - MIN_USER_ID]? = some j.slots[id - MIN_USER_ID] := List.getElem?_eq_getElem hlt
    have hst : j.store id = some j.slots[id - MIN_USER_ID] := by
      rw [store_eq, if_pos ⟨h1, h2⟩, hs]
    have hp : j.ptr id = j.slots[id - MIN_USER_ID].c99 := by
      unfold Job.ptr; rw [hst]
    rw [hs] at e
    simp only at e
    generalize hsd : j.slots[id - MIN_USER_ID] = s at *
    have hgs : GoodStore s := h.st s (List.mem_of_getElem? hs)
    by_cases ha : s.active = true
    · rw [if_pos ha] at e
      obtain ⟨j1, e1, e2⟩ := Res.bind_eq_ok.1 e
      obtain ⟨a1, a2, a3, a4, a5⟩ := free_slots e1
      rw [Res.pure_eq, Res.ok_inj, Prod.mk.injEq] at e2
      obtain ⟨rfl, rfl⟩ := e2
      have hpos := num_pos h hs ha
      have hg : Good { j1 with slots := j1.slots.set (id - MIN_USER_ID) Store.empty, num := j1.num - 1 } := by
        refine ⟨?_, ?_⟩
        · intro t ht
          rcases List.mem_or_eq_of_mem_set ht with ht | rfl
          · rw [a1] at ht; exact h.st t ht
          · exact goodStore_empty
        · show j1.num - 1 = (j1.slots.set _ _).countP _
          rw [a1, a2, List.countP_set hlt, hsd, ha, active_empty, h.num]
          simp
      have hsl : ∀ i, (j.slots.set (id - MIN_USER_ID) Store.empty)[i]? =
          if MIN_USER_ID ≤ id ∧ i = id - MIN_USER_ID ∧ i < j.slots.length then some Store.empty
            else j.slots[i]? := by
        intro i
        rw [List.getElem?_set]
        by_cases hi : id - MIN_USER_ID = i
        · have hi' : i < j.slots.length := by omega
          rw [if_pos hi, if_pos hlt, if_pos (And.intro h2 (And.intro hi.symm hi'))]
        · rw [if_neg hi, if_neg (fun hh => hi hh.2.1.symm)]
      refine ⟨hg, by show (j1.slots.set _ _).length = _; rw [List.length_set, a1], a3, a4, by simp [hr],
        Or.inl rfl, ?_, ?_, ?_, ?_, ?_⟩
      · intro hn
        rw [hp] at hn
        rw [active_iff] at ha
        exact absurd hn ha
      · intro _
        show j1.num - 1 + 1 = j.num
        rw [a2]
        omega
      · intro id'
        rw [ptr_eq hg, ptr_eq h]
        simp only [a1, hsl]
        by_cases hid : id' = id
        · subst hid
          rw [if_pos h2, if_pos (And.intro h2 (And.intro (Eq.refl _) hlt)), if_pos (Eq.refl id')]
          rfl
        · rw [if_neg hid]
          by_cases hm : MIN_USER_ID ≤ id'
          · rw [if_pos hm, if_pos hm, if_neg (fun hh => hid (by have := hh.2.1; omega))]
          · rw [if_neg hm, if_neg hm]
      · intro i
        show (j1.slots.set _ _)[i]? = _
        rw [a1]
        exact hsl i
      · intro b
        rw [hst]
        exact a5 b
    · rw [if_neg ha] at e
      cases e
      have hem : s = Store.empty := hgs.inactive (by simpa using ha)
      refine ⟨h, rfl, rfl, rfl, by simp [hr], Or.inl rfl, fun _ => rfl, ?_, ?_, ?_, ?_⟩
      · intro hn
        exact absurd (by rw [hp, hem]; rfl) hn
      · intro id'
        by_cases hid : id' = id
        · rw [if_pos hid, hid, hp, hem]; rfl
        · rw [if_neg hid]
      · intro i
        split_ifs with hc
        · rw [hc.2.1, hs, hem]
        · rfl
      · intro b
        rw [hst, hem]
        simp [Store.empty]
  · rw [if_neg hr] at e
    cases e
    have hst : j.store id = none := by unfold Job.store; rw [if_neg hr]
    have hp : j.ptr id = none := by unfold Job.ptr; rw [hst]
    refine ⟨h, rfl, rfl, rfl, ?_, Or.inr rfl, fun _ => rfl, fun hn => absurd hp hn, ?_, ?_, ?_⟩
    · simp [hr, SUCCESS, FAILURE]
    · intro id'
      by_cases hid : id' = id
      · rw [if_pos hid, hid, hp]
      · rw [if_neg hid]
    · intro i
      split_ifs with hc
      · obtain ⟨c1, c2, c3⟩ := hc
        have hn : ¬ 0 < j.num := fun hn => hr ((inRange_iff j id).2 ⟨hn, c1, by omega⟩)
        have hs : j.slots[i]? = some j.slots[i] := List.getElem?_eq_getElem c3
        rw [hs]
        congr 1
        apply (h.st _ (List.getElem_mem c3)).inactive
        by_contra ha
        exact hn (num_pos h hs (by simpa using ha))
      · rfl
    · intro b
      rw [hst]
      simp

theorem good_clear {j j' : Job} (e : j.clearOld = .ok j') : Good j' := by
  obtain ⟨j1, -, e2⟩ := Res.bind_eq_ok.1 e
  cases e2
  exact ⟨fun _ h => (by cases h), rfl⟩

theorem good_reserve {j : Job} (h : Good j) (c : Nat) : Good (j.reserve c).1 := by
  unfold Job.reserve
  split_ifs
  · exact good_of_eq h rfl rfl
  · exact h

theorem good_step {j j' : Job} {o : Op} (h : Good j) (e : j.step o = .ok j') : Good j' := by
  cases o with
  | add g =>
    obtain ⟨⟨j1, id⟩, e1, e2⟩ := Res.bind_eq_ok.1 e
    cases e2
    exact good_add h e1
  | remove id =>
    obtain ⟨⟨j1, st⟩, e1, e2⟩ := Res.bind_eq_ok.1 e
    cases e2
    exact (remove_spec h e1).1
  | reserve c => cases e; exact good_reserve h c
  | clearOld => exact good_clear e

theorem good_run (os : List Op) : ∀ {j j' : Job}, Good j → j.run os = .ok j' → Good j' := by
  induction os with
  | nil => intro j j' h e; cases e; exact h
  | cons o os ih =>
    intro j j' h e
    obtain ⟨j1, e1, e2⟩ := Res.bind_eq_ok.1 e
    exact ih (good_step h e1) e2

end SixTrack.StoredBuf
