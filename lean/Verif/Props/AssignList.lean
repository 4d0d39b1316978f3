import Verif.AssignListLemmas
import Verif.Props.Assign
import Mathlib.Algebra.BigOperators.Group.List.Basic

/-!
# Property C86: a job keeps the address assignments it is given, until they are removed
-/

namespace SixTrack
open Assign AssignList

namespace AssignList

/-- The lists of a job after a program has done some operations, where new buffers of items have room for
`r` items. -/
def Reached (r : Nat) (l : Lists) : Prop := ∃ os, Lists.new.run r os = .ok l

/-- The items for a pair of buffers, as the job gives them when asked for one index after the other. -/
def Lists.items (l : Lists) (k : Key) : List Item := (List.range (l.num k)).filterMap (l.get k)

/-- The buffers the item is about. -/
def itemCfg (bufs : Nat → Option Buf) (it : Item) : Option Cfg :=
  match bufferById bufs it.destBuffer, bufferById bufs it.srcBuffer with
  | some d, some s => some ⟨d, it.destBuffer, s, it.srcBuffer⟩
  | _, _ => none

theorem Reached.good {r : Nat} {l : Lists} (h : Reached r l) : Good r l := by
  obtain ⟨os, h⟩ := h
  exact good_run os (good_new r) h

theorem run_append {r : Nat} (os os' : List Op) : ∀ {l l' : Lists}, l.run r os = .ok l' →
    l.run r (os ++ os') = l'.run r os' := by
  induction os with
  | nil =>
    intro l l' h
    cases h
    rfl
  | cons o os ih =>
    intro l l' h
    obtain ⟨l2, e, e'⟩ := Res.bind_eq_ok.1 h
    rw [List.cons_append, Lists.run, e, Res.ok_bind]
    exact ih e'

theorem Reached.step {r : Nat} {l l' : Lists} {o : Op} (h : Reached r l) (e : l.step r o = .ok l') :
    Reached r l' := by
  obtain ⟨os, h⟩ := h
  refine ⟨os ++ [o], ?_⟩
  rw [run_append os [o] h, Lists.run, e]
  rfl

theorem filterMap_range {α : Type} (xs : List α) :
    (List.range xs.length).filterMap (fun i => xs[i]?) = xs := by
  induction xs with
  | nil => rfl
  | cons x xs ih =>
    rw [List.length_cons, List.range_succ_eq_map, List.filterMap_cons]
    simp only [List.getElem?_cons_zero]
    rw [List.filterMap_map]
    congr 1

theorem items_eq (l : Lists) (k : Key) :
    l.items k = match mapFind l.map k with
      | none => []
      | some b => b.items := by
  unfold Lists.items Lists.num Lists.get
  cases mapFind l.map k with
  | none => rfl
  | some b => exact filterMap_range b.items

theorem items_length (l : Lists) (k : Key) : (l.items k).length = l.num k := by
  rw [items_eq]
  unfold Lists.num
  cases mapFind l.map k <;> rfl

theorem has_iff (l : Lists) (it : Item) : l.has it = true ↔ it ∈ l.items (keyOf it) := by
  rw [items_eq]
  unfold Lists.has Lists.num
  rw [decide_eq_true_iff]
  cases h : mapFind l.map (keyOf it) with
  | none => simp
  | some b => exact find_lt h

theorem items_key {r : Nat} {l : Lists} (h : Good r l) {k : Key} {it : Item} (hm : it ∈ l.items k) :
    keyOf it = k := by
  rw [items_eq] at hm
  cases hf : mapFind l.map k with
  | none =>
    rw [hf] at hm
    exact absurd hm List.not_mem_nil
  | some b =>
    rw [hf] at hm
    exact (h.items k b hf).2.1 it hm

end AssignList

/-- The keys a job lists are sorted and differ from each other; they are the pairs of buffers for which there
are items.  The items for a pair are about this pair and differ from each other; the total is the sum of the
numbers for the keys. -/
theorem C86_lists {r : Nat} {l : Lists} (h : Reached r l) :
    (l.keys.Pairwise fun a b => a.dest < b.dest ∨ a.dest = b.dest ∧ a.src < b.src) ∧
    (∀ k, k ∈ l.keys ↔ l.items k ≠ []) ∧
    (∀ k, (l.items k).Nodup ∧ ∀ it ∈ l.items k, it.destBuffer = k.dest ∧ it.srcBuffer = k.src) ∧
    l.total = (l.keys.map l.num).sum := by
  have hg := h.good
  refine ⟨?_, ?_, ?_, ?_⟩
  · rw [hg.keys]
    exact hg.sorted.imp fun hab => (less_iff _ _).1 hab
  · intro k
    rw [items_eq, hg.keys]
    cases hf : mapFind l.map k with
    | none => simpa using mapFind_none.1 hf
    | some b => simpa [(hg.items k b hf).1] using mapFind_some_mem hf
  · intro k
    refine ⟨?_, fun it hm => ?_⟩
    · rw [items_eq]
      cases hf : mapFind l.map k with
      | none => simp
      | some b => exact (hg.items k b hf).2.2.1
    · rw [← items_key hg hm]
      exact ⟨rfl, rfl⟩
  · unfold Lists.total
    rw [hg.keys]
    have hs := hg.sorted
    have key : ∀ m : List (Key × ItemBuf), Sorted (m.map Prod.fst) →
        (m.map fun e => e.2.items.length) = (m.map Prod.fst).map (Lists.num ⟨m, l.keys⟩) := by
      intro m
      induction m with
      | nil => intro _; rfl
      | cons e m ih =>
        obtain ⟨k, b⟩ := e
        intro hs
        have hs' := List.pairwise_cons.1 hs
        rw [List.map_cons, List.map_cons, List.map_cons, ih hs'.2]
        congr 1
        · simp [Lists.num, mapFind]
        · apply List.map_congr_left
          intro k' hk'
          unfold Lists.num
          simp only
          rw [mapFind, if_neg (less_ne (hs'.1 k' hk'))]
    rw [key l.map hs]

/-- Adding an item gives the stored item; afterwards it is the last one for its pair of buffers, unless it has
been there before, in which case nothing changes.  The items for other pairs stay as they are. -/
theorem C86_add {r : Nat} {l : Lists} (h : Reached r l) (it : Item) :
    ∃ l', l.addItem r it = .ok (l', some it) ∧ Reached r l' ∧ l'.has it = true ∧ l'.ptr it = some it ∧
      ∀ k, l'.items k = if k = keyOf it ∧ it ∉ l.items k then l.items k ++ [it] else l.items k := by
  obtain ⟨l', i, e, hg', hget, hfind, -⟩ := add_good h.good it
  have hadd : l.addItem r it = .ok (l', some it) := by
    unfold Lists.addItem
    rw [if_pos (valid_true it), e, Res.ok_bind]
    simp only
    rw [hget]
  have hitems : ∀ k, l'.items k =
      if k = keyOf it ∧ it ∉ l.items k then l.items k ++ [it] else l.items k := by
    intro k
    rw [items_eq, items_eq, hfind k]
    by_cases hk : k = keyOf it
    · subst hk
      rw [if_pos rfl]
      cases hf : mapFind l.map (keyOf it) with
      | none => simp
      | some b =>
        simp only [true_and]
        by_cases hm : it ∈ b.items
        · rw [if_pos hm, if_neg (fun h' => h' hm)]
        · rw [if_neg hm, if_pos hm]
    · rw [if_neg hk, if_neg fun h' => hk h'.1]
  have hmem : it ∈ l'.items (keyOf it) := by
    rw [hitems]
    by_cases hm : it ∈ l.items (keyOf it)
    · rwa [if_neg fun h' => h'.2 hm]
    · rw [if_pos ⟨rfl, hm⟩]
      simp
  refine ⟨l', hadd, h.step (o := .add it) ?_, (has_iff l' it).2 hmem, ?_, hitems⟩
  · simp only [Lists.step, hadd, Res.ok_bind]
  · rw [items_eq] at hmem
    unfold Lists.ptr Lists.get
    cases hf : mapFind l'.map (keyOf it) with
    | none =>
      rw [hf] at hmem
      exact absurd hmem List.not_mem_nil
    | some b =>
      rw [hf] at hmem
      exact find_get hf hmem

/-- Adding an item that is there changes nothing at all. -/
theorem C86_add_again {r : Nat} {l : Lists} (it : Item) (hm : l.has it = true) :
    l.addItem r it = .ok (l, some it) := by
  rw [has_iff, items_eq] at hm
  unfold Lists.addItem Lists.add
  rw [if_pos (valid_true it)]
  cases hf : mapFind l.map (keyOf it) with
  | none =>
    rw [hf] at hm
    exact absurd hm List.not_mem_nil
  | some b =>
    rw [hf] at hm
    rw [if_pos (valid_true it)]
    simp only
    rw [if_pos ((find_lt hf).2 hm), Res.ok_bind]
    simp only
    unfold Lists.get
    rw [hf]
    simp only
    rw [find_get hf hm]

/-- The index that is found for an item is that of the item; for an item which is not there it is not the
index of any item, and the pointer is null. -/
theorem C86_find (l : Lists) (it : Item) :
    (l.has it = true ↔ it ∈ l.items (keyOf it)) ∧
    (l.has it = true → l.find it < l.num (keyOf it) ∧ l.get (keyOf it) (l.find it) = some it) ∧
    (l.has it = false → l.get (keyOf it) (l.find it) = none ∧ l.ptr it = none) := by
  refine ⟨has_iff l it, ?_, ?_⟩
  · intro hm
    refine ⟨by simpa [Lists.has] using hm, ?_⟩
    rw [has_iff, items_eq] at hm
    unfold Lists.get
    cases hf : mapFind l.map (keyOf it) with
    | none =>
      rw [hf] at hm
      exact absurd hm List.not_mem_nil
    | some b =>
      rw [hf] at hm
      exact find_get hf hm
  · intro hm
    have hn : l.get (keyOf it) (l.find it) = none := by
      have h1 : ¬ l.find it < l.num (keyOf it) := by simpa [Lists.has] using hm
      unfold Lists.num at h1
      unfold Lists.get
      cases hf : mapFind l.map (keyOf it) with
      | none => rfl
      | some b =>
        rw [hf] at h1
        exact List.getElem?_eq_none (Nat.le_of_not_lt h1)
    exact ⟨hn, hn⟩

/-- The index of an item that is not there is the number of items with its buffers, or the largest number if there
are none. -/
theorem C86_find_none {r : Nat} {l : Lists} (h : Reached r l) (it : Item) (hm : l.has it = false) :
    l.find it = if l.items (keyOf it) = [] then 2 ^ 64 - 1 else l.num (keyOf it) := by
  have hn : ¬ l.find it < l.num (keyOf it) := by simpa [Lists.has] using hm
  rw [items_eq]
  cases hf : mapFind l.map (keyOf it) with
  | none =>
    unfold Lists.find
    rw [hf]
    rfl
  | some b =>
    have hne := (h.good.items _ b hf).1
    unfold Lists.num at hn ⊢
    unfold Lists.find at hn ⊢
    rw [hf] at hn ⊢
    simp only at hn ⊢
    rw [if_neg hne]
    exact Nat.le_antisymm List.findIdx_le_length (Nat.le_of_not_lt hn)

/-- The ids of buffers are 1 to 5 and those a user may get; an id other than 0 which is not one of these stands for
raw memory, and no id does both. -/
theorem C86_ids (i : Nat) :
    (isBuffer i = true ↔ i ∈ [1, 2, 3, 4, 5] ∨ (1024 ≤ i ∧ i < 2 ^ 64 - 1)) ∧
    (isRawMemory i = true ↔ i ≠ 0 ∧ ¬ isBuffer i = true) ∧
    (i = 0 ∨ isBuffer i = true ∨ isRawMemory i = true) ∧
    isBuffer 0 = false ∧ isRawMemory 0 = false := by
  have h1 : isBuffer i = true ↔ i ∈ [1, 2, 3, 4, 5] ∨ (1024 ≤ i ∧ i < 2 ^ 64 - 1) := by
    simp only [isBuffer, Bool.or_eq_true, Bool.and_eq_true, decide_eq_true_eq, List.mem_cons,
      List.not_mem_nil, or_false]
    unfold MIN_USER_ID MAX_USER_ID
    constructor <;> intro h <;> omega
  have h2 : isRawMemory i = true ↔ i ≠ 0 ∧ ¬ isBuffer i = true := by
    simp [isRawMemory, ILLEGAL_ID]
  refine ⟨h1, h2, ?_, by decide, by decide⟩
  by_cases h0 : i = 0
  · exact Or.inl h0
  · by_cases hb : isBuffer i = true
    · exact Or.inr (Or.inl hb)
    · exact Or.inr (Or.inr (h2.2 ⟨h0, hb⟩))

/-- Ids of both kinds -/
example : isBuffer 5 = true ∧ isBuffer 1024 = true ∧ isRawMemory 6 = true ∧ isRawMemory 1023 = true := by decide

namespace AssignList

/-- Two items for one pair of buffers and one for another -/
def exA : Item := ⟨1, 2, 7, 3, 0, 0, 16, 8⟩
def exB : Item := ⟨1, 2, 7, 3, 1, 0, 16, 8⟩
def exC : Item := ⟨1, 3, 7, 3, 1, 0, 16, 8⟩

end AssignList

example : ∃ l, Reached 3 l ∧ l.items ⟨1, 2⟩ = [exA, exB] ∧ l.items ⟨1, 3⟩ = [exC] ∧
    l.keys = [⟨1, 2⟩, ⟨1, 3⟩] ∧ l.total = 3 ∧ l.has exB = true ∧ l.find exB = 1 :=
  ⟨_, ⟨[.add exC, .add exA, .add exB, .add exC], rfl⟩, by decide, by decide, by decide, by decide, by decide,
    by decide⟩

/-- **C86 is false of the code**: removing one item removes the others of the same pair of buffers, too. -/
theorem C86_remove_violated :
    ∃ l l', Reached 3 l ∧ l.items (keyOf exA) = [exA, exB] ∧ l.remove exA = .ok (l', true) ∧
      l'.has exB = false ∧ l'.items (keyOf exA) = [] ∧ (keyOf exA) ∉ l'.keys :=
  ⟨_, _, ⟨[.add exC, .add exA, .add exB], rfl⟩, by decide, rfl, by decide, by decide, by decide⟩

/-- If the removal is defined, it succeeds if the item is there and changes nothing otherwise.  All items for
its pair of buffers are gone, those for other pairs are still there. -/
theorem C86_remove_partial {r : Nat} {l l' : Lists} (h : Reached r l) (it : Item) (ok : Bool)
    (hr : l.remove it = .ok (l', ok)) :
    Reached r l' ∧ ok = l.has it ∧ (ok = false → l' = l) ∧
      (ok = true → ∀ k, l'.items k = if k = keyOf it then [] else l.items k) ∧
      (ok = true → l'.keys = l.keys.filter fun k => k ≠ keyOf it) := by
  refine ⟨h.step (o := .remove it) (by simp only [Lists.step, hr, Res.ok_bind]), ?_⟩
  unfold Lists.remove at hr
  rw [removeAt_good h.good] at hr
  unfold Lists.has
  split_ifs at hr with h1 h2
  · cases hr
    refine ⟨by simpa using h1, by simp, fun _ k => ?_, fun _ => rfl⟩
    rw [items_eq, items_eq]
    simp only
    rw [mapFind_erase]
    split_ifs <;> rfl
  · cases hr
    exact ⟨by simpa using h1, fun _ => rfl, by simp, by simp⟩

/-- The only item for its pair of buffers can be removed. -/
theorem C86_remove_last {r : Nat} {l : Lists} (h : Reached r l) (it : Item)
    (hi : l.items (keyOf it) = [it]) :
    ∃ l', l.remove it = .ok (l', true) ∧ l'.has it = false ∧
      ∀ k, l'.items k = (l.items k).filter fun x => x ≠ it := by
  have hn : l.num (keyOf it) = 1 := by rw [← items_length, hi]; rfl
  have hh : l.has it = true := by rw [has_iff, hi]; exact List.mem_singleton.2 rfl
  have hf : l.find it < l.num (keyOf it) := by simpa [Lists.has] using hh
  have hr : l.remove it = .ok (⟨mapErase l.map (keyOf it), l.keys.filter (fun x => x ≠ keyOf it)⟩, true) := by
    unfold Lists.remove
    rw [removeAt_good h.good, if_pos hf, hn, if_pos (by omega)]
  refine ⟨_, hr, ?_, ?_⟩
  · have := ((C86_remove_partial h it true hr).2.2.2.1 rfl) (keyOf it)
    rw [← Bool.not_eq_true, has_iff, this, if_pos rfl]
    exact List.not_mem_nil
  · intro k
    rw [((C86_remove_partial h it true hr).2.2.2.1 rfl) k]
    split_ifs with hk
    · subst hk
      rw [hi]
      simp
    · symm
      rw [List.filter_eq_self]
      intro x hx
      have hxk := items_key h.good hx
      have : x ≠ it := by
        rintro rfl
        exact hk hxk.symm
      simpa using this

/-- **C86 is false of the code**: items that are to be kept are copied to the buffer they are in.  If there is
no room for the copies, they are read from memory that has been given back.  With room for one item in a new
buffer this is the case whenever there is more than one item. -/
theorem C86_remove_undefined_violated {r : Nat} {l : Lists} (h : Reached r l) (it : Item)
    (hm : l.has it = true) :
    (l.remove it = .ub ↔ 2 ≤ l.num (keyOf it) ∧ r < 2 * l.num (keyOf it) - 1) ∧
    (r ≤ 2 → 2 ≤ l.num (keyOf it) → l.remove it = .ub) := by
  have hf : l.find it < l.num (keyOf it) := by simpa [Lists.has] using hm
  unfold Lists.remove
  rw [removeAt_good h.good, if_pos hf]
  by_cases hc : l.num (keyOf it) - 1 ≤ r - l.num (keyOf it)
  · rw [if_pos hc]
    refine ⟨⟨fun h' => (by cases h'), fun h' => by omega⟩, fun h1 h2 => by omega⟩
  · rw [if_neg hc]
    refine ⟨⟨fun _ => by omega, fun _ => rfl⟩, fun _ _ => rfl⟩

example : ∃ l, Reached 1 l ∧ l.has exA = true ∧ l.num (keyOf exA) = 2 ∧ l.remove exA = .ub :=
  ⟨_, ⟨[.add exC, .add exA, .add exB], rfl⟩, by decide, by decide, by decide⟩

/-- Removing by index: the same, an index that is too large is refused. -/
theorem C86_remove_index {r : Nat} {l : Lists} (h : Reached r l) (k : Key) (i : Nat) :
    (l.num k ≤ i → l.removeAt k i = .ok (l, false)) ∧
    (∀ it, l.get k i = some it → l.removeAt k i = l.remove it) := by
  refine ⟨fun hi => ?_, fun it hg => ?_⟩
  · rw [removeAt_good h.good, if_neg (by omega)]
  · have hi : i < l.num k ∧ it ∈ l.items k := by
      rw [items_eq]
      unfold Lists.get at hg
      unfold Lists.num
      cases hf : mapFind l.map k with
      | none => rw [hf] at hg; cases hg
      | some b =>
        rw [hf] at hg
        exact ⟨(List.getElem?_eq_some_iff.1 hg).1, List.mem_of_getElem? hg⟩
    have hk := items_key h.good hi.2
    subst hk
    have hf : l.find it < l.num (keyOf it) := by
      have := (has_iff l it).2 hi.2
      simpa [Lists.has] using this
    unfold Lists.remove
    rw [removeAt_good h.good, removeAt_good h.good, if_pos hi.1, if_pos hf]

/-- **C86 is false of the code**: the range of the items of a pair of buffers is always empty, and so is the
range of the keys. -/
theorem C86_ranges_violated :
    (∀ l k, Lists.itemsEnd l k = Lists.itemsBegin l k) ∧
    (∀ r l, Reached r l → l.keysEnd = l.keysBegin) ∧
    ∃ l, Reached 3 l ∧ l.items ⟨1, 2⟩ = [exA, exB] ∧ l.itemsBegin ⟨1, 2⟩ = some 0 ∧
      l.itemsEnd ⟨1, 2⟩ = some 0 ∧ l.keys = [⟨1, 2⟩, ⟨1, 3⟩] ∧ l.keysBegin = 0 ∧ l.keysEnd = 0 := by
  refine ⟨fun _ _ => rfl, ?_, ⟨_, ⟨[.add exC, .add exA, .add exB], rfl⟩, by decide, by decide, by decide,
    by decide, rfl, by decide⟩⟩
  intro r l h
  unfold Lists.keysEnd
  split_ifs with hk
  · have : l.map = [] := by
      have := h.good.keys
      rw [hk] at this
      exact List.map_eq_nil_iff.1 this.symm
    rw [this]
    rfl
  · rfl

/-- The pairs that are written to an array: the first keys in order, then pairs of illegal ids.  The number of
keys is what is returned, unless the array is too small.  A job without items leaves the array as it is. -/
theorem C86_pairs {r : Nat} {l : Lists} (h : Reached r l) (out : List Key) :
    (l.pairs out).1.length = out.length ∧ (l.pairs out).2 = min out.length l.numPairs ∧
    (l.numPairs = 0 → (l.pairs out).1 = out) ∧
    (∀ i, i < out.length → l.numPairs ≠ 0 → (l.pairs out).1[i]? = some (l.keys.getD i ⟨0, 0⟩)) := by
  have hmap : l.map = [] ↔ l.keys = [] := by
    rw [h.good.keys]
    exact List.map_eq_nil_iff.symm
  unfold Lists.pairs Lists.numPairs
  by_cases hk : l.keys = []
  · rw [if_neg fun h' => h'.2 (hmap.2 hk), hk]
    simp
  · have hk' : l.keys.length ≠ 0 := by simpa using hk
    by_cases ho : 0 < out.length
    · rw [if_pos ⟨ho, fun h' => hk (hmap.1 h')⟩]
      refine ⟨?_, rfl, fun h' => absurd h' hk', fun i hi _ => ?_⟩
      · simp only [List.length_append, List.length_take, List.length_replicate]
        omega
      · simp only
        by_cases hik : i < l.keys.length
        · rw [List.getElem?_append_left (by rw [List.length_take]; omega), List.getElem?_take_of_lt hi,
            List.getElem?_eq_getElem hik]
          simp [hik]
        · rw [List.getElem?_append_right (by rw [List.length_take]; omega), List.length_take,
            List.getElem?_replicate, if_pos (by omega)]
          simp [Nat.le_of_not_lt hik, ILLEGAL_ID]
    · rw [if_neg fun h' => ho h'.1]
      have : out.length = 0 := by omega
      simp [this, hk]

example : ∃ l, Reached 0 l ∧ l.pairs [⟨9, 9⟩, ⟨9, 9⟩, ⟨9, 9⟩] = ([⟨1, 2⟩, ⟨1, 3⟩, ⟨0, 0⟩], 2) :=
  ⟨_, ⟨[.add exC, .add exA, .add exB], rfl⟩, by decide⟩

/-- Assigning all addresses: if the buffers of all items are there, as are the sources and the destinations,
and no two items have the same destination, then it succeeds, every destination holds the address of the
source and nothing else has changed. -/
theorem C86_assign_all {r : Nat} {l : Lists} (h : Reached r l) (bufs : Nat → Option Buf) (m : Mem)
    (hp : ∀ it, l.has it = true → ∃ c, itemCfg bufs it = some c ∧ Proper c it)
    (hd : ∀ a b ca cb, l.has a = true → l.has b = true → itemCfg bufs a = some ca →
      itemCfg bufs b = some cb → destOf ca a = destOf cb b → a = b) :
    ∃ m', l.assignAll bufs m = .ok (m', true) ∧
      (∀ it c, l.has it = true → itemCfg bufs it = some c → m' (destOf c it) = srcOf c it) ∧
      (∀ a, (∀ it c, l.has it = true → itemCfg bufs it = some c → a ≠ destOf c it) → m' a = m a) := by
  have hg := h.good
  -- one key
  have one : ∀ k, k ∈ l.map.map Prod.fst → ∀ m, ∃ m', l.perform bufs k m = .ok (m', true) ∧
      (∀ it c, it ∈ l.items k → itemCfg bufs it = some c → m' (destOf c it) = srcOf c it) ∧
      (∀ a, (∀ it c, it ∈ l.items k → itemCfg bufs it = some c → a ≠ destOf c it) → m' a = m a) := by
    intro k hk m
    cases hf : mapFind l.map k with
    | none => exact absurd hk (mapFind_none.1 hf)
    | some b =>
      obtain ⟨hne, hkey, hnd, -⟩ := hg.items k b hf
      have hit : l.items k = b.items := by rw [items_eq, hf]
      have hhas : ∀ it ∈ b.items, l.has it = true := by
        intro it hi
        rw [has_iff, hkey it hi, hit]
        exact hi
      have hcfg : ∃ d s, bufferById bufs k.dest = some d ∧ bufferById bufs k.src = some s := by
        obtain ⟨x, hx⟩ := List.exists_mem_of_ne_nil _ hne
        obtain ⟨c, hc, -⟩ := hp x (hhas x hx)
        have hkx := hkey x hx
        subst hkx
        unfold itemCfg at hc
        cases h1 : bufferById bufs x.destBuffer with
        | none => rw [h1] at hc; cases hc
        | some d =>
          cases h2 : bufferById bufs x.srcBuffer with
          | none => rw [h1, h2] at hc; cases hc
          | some s => exact ⟨d, s, h1, h2⟩
      obtain ⟨d, s, h1, h2⟩ := hcfg
      have hic : ∀ it ∈ b.items, itemCfg bufs it = some ⟨d, k.dest, s, k.src⟩ := by
        intro it hi
        have hkx := hkey it hi
        subst hkx
        unfold itemCfg
        rw [show bufferById bufs it.destBuffer = some d from h1,
          show bufferById bufs it.srcBuffer = some s from h2]
        rfl
      have hmem : ∀ it, some it ∈ b.items.map some → it ∈ b.items := by
        intro it hi
        obtain ⟨x, hx, e⟩ := List.mem_map.1 hi
        cases e
        exact hx
      have hperm : (indices (b.items.map some).length 1 0).Perm
          (allIndices (b.items.map some).length 1) := by
        unfold allIndices
        simp [List.range_succ]
      obtain ⟨m', e, e1, e2⟩ := C18_any_schedule ⟨d, k.dest, s, k.src⟩ (b.items.map some) 1 (by omega) _ hperm m
        (by
          intro it hi _
          obtain ⟨c, hc, hpr⟩ := hp it (hhas it (hmem it hi))
          rw [hic it (hmem it hi)] at hc
          cases hc
          exact hpr)
        (by
          intro i j x y hx hy _ _ e
          rw [List.getElem?_map, Option.map_eq_some_iff] at hx hy
          obtain ⟨x', hx, ex⟩ := hx
          obtain ⟨y', hy, ey⟩ := hy
          cases ex
          cases ey
          have hxm := List.mem_of_getElem? hx
          have hym := List.mem_of_getElem? hy
          have hxy := hd x y _ _ (hhas x hxm) (hhas y hym) (hic x hxm) (hic y hym) e
          subst hxy
          exact (List.getElem?_inj (List.getElem?_eq_some_iff.1 hx).1 hnd).1 (hx.trans hy.symm))
      refine ⟨m', ?_, ?_, ?_⟩
      · unfold Lists.perform
        rw [hf, h1, h2]
        simp only
        rw [kernel_eq_trace _ _ _ _ _ _ _ rfl]
        exact e
      · intro it c hi hc
        rw [hit] at hi
        rw [hic it hi] at hc
        cases hc
        have hkx := hkey it hi
        subst hkx
        exact e1 it (List.mem_map.2 ⟨it, hi, rfl⟩) ⟨rfl, rfl⟩
      · intro a ha
        apply e2
        intro it hi _
        have hi' := hmem it hi
        exact ha it _ (by rw [hit]; exact hi') (hic it hi')
  -- all keys
  have all : ∀ ks : List Key, ks.Nodup → (∀ k ∈ ks, k ∈ l.map.map Prod.fst) → ∀ m, ∃ m',
      l.performAll bufs ks m = .ok (m', true) ∧
      (∀ it c, keyOf it ∈ ks → l.has it = true → itemCfg bufs it = some c → m' (destOf c it) = srcOf c it) ∧
      (∀ a, (∀ it c, keyOf it ∈ ks → l.has it = true → itemCfg bufs it = some c → a ≠ destOf c it) →
        m' a = m a) := by
    intro ks
    induction ks with
    | nil =>
      intro _ _ m
      exact ⟨m, rfl, fun it c hk => absurd hk List.not_mem_nil, fun _ _ => rfl⟩
    | cons k ks ih =>
      intro hnd hks m
      obtain ⟨hkn, hnd'⟩ := List.nodup_cons.1 hnd
      obtain ⟨m1, e, e1, e2⟩ := one k (hks k List.mem_cons_self) m
      obtain ⟨m2, f, f1, f2⟩ := ih hnd' (fun x hx => hks x (List.mem_cons_of_mem _ hx)) m1
      refine ⟨m2, ?_, ?_, ?_⟩
      · unfold Lists.performAll
        rw [e, Res.ok_bind]
        exact f
      · intro it c hk hh hc
        rcases List.mem_cons.1 hk with hk | hk
        · rw [f2]
          · exact e1 it c (by rw [← hk]; exact (has_iff l it).1 hh) hc
          · intro it' c' hk' hh' hc' e'
            have := hd it it' c c' hh hh' hc hc' e'
            subst this
            rw [hk] at hk'
            exact hkn hk'
        · exact f1 it c hk hh hc
      · intro a ha
        rw [f2 a fun it c hk => ha it c (List.mem_cons_of_mem _ hk)]
        apply e2
        intro it c hi hc
        have hk := items_key hg hi
        refine ha it c (by rw [hk]; exact List.mem_cons_self) ?_ hc
        rw [has_iff, hk]
        exact hi
  obtain ⟨m', e, e1, e2⟩ := all (l.map.map Prod.fst)
    (hg.sorted.imp fun hab => less_ne hab) (fun _ hk => hk) m
  have hin : ∀ it, l.has it = true → keyOf it ∈ l.map.map Prod.fst := by
    intro it hh
    by_contra hn
    rw [has_iff, items_eq, mapFind_none.2 hn] at hh
    exact absurd hh List.not_mem_nil
  refine ⟨m', e, fun it c hh hc => e1 it c (hin it hh) hh hc, fun a ha => ?_⟩
  exact e2 a fun it c _ hh hc => ha it c hh hc

/-- What is assigned for the keys before the first one that fails stays, the failure is reported, and nothing
is done for the keys after it. -/
theorem C86_assign_stops (l : Lists) (bufs : Nat → Option Buf) (pre post : List Key) (k : Key) (m m1 m2 : Mem)
    (hk : l.map.map Prod.fst = pre ++ k :: post) (h1 : l.performAll bufs pre m = .ok (m1, true))
    (h2 : l.perform bufs k m1 = .ok (m2, false)) : l.assignAll bufs m = .ok (m2, false) := by
  unfold Lists.assignAll
  rw [hk]
  clear hk
  revert m
  induction pre with
  | nil =>
    intro m h1
    cases h1
    show Lists.performAll bufs l (k :: post) m1 = _
    unfold Lists.performAll
    rw [h2, Res.ok_bind]
    rfl
  | cons x pre ih =>
    intro m h1
    unfold Lists.performAll at h1
    obtain ⟨⟨m3, ok⟩, e, e'⟩ := Res.bind_eq_ok.1 h1
    show Lists.performAll bufs l (x :: (pre ++ k :: post)) m = _
    unfold Lists.performAll
    rw [e, Res.ok_bind]
    cases ok with
    | false => cases e'
    | true => exact ih m3 e'

/-- An item is never refused; if one of its buffers is raw memory, has an illegal id or is not there, nothing can
be assigned for it. -/
theorem C86_no_buffer (l : Lists) (bufs : Nat → Option Buf) (k : Key) (m : Mem)
    (hk : isBuffer k.dest = false ∨ isBuffer k.src = false ∨ bufs k.dest = none ∨ bufs k.src = none) :
    l.perform bufs k m = .ok (m, false) := by
  have : bufferById bufs k.dest = none ∨ bufferById bufs k.src = none := by
    unfold bufferById
    rcases hk with hk | hk | hk | hk
    · left; rw [hk]; rfl
    · right; rw [hk]; rfl
    · left; rw [hk]; simp
    · right; rw [hk]; simp
  unfold Lists.perform
  rcases this with h | h
  · rw [h]
    cases mapFind l.map k <;> rfl
  · rw [h]
    cases mapFind l.map k <;> cases bufferById bufs k.dest <;> rfl

namespace AssignList

/-- Particles and beam elements buffers of a job -/
def exBufs : Nat → Option Buf
  | 1 => some exCfg.dest
  | 2 => some exCfg.src
  | _ => none

/-- An item without buffers: both ids are illegal -/
def exIllegal : Item := ⟨0, 0, 7, 3, 0, 0, 16, 8⟩

end AssignList

/-- **C86 is false of the code**: an item with illegal buffer ids is accepted, and from then on no address gets
assigned any more, although the other item is as it should be. -/
theorem C86_illegal_violated :
    ∃ l, Reached 1 l ∧ l.has exA = true ∧ l.has exIllegal = true ∧
      (∃ m, l.perform exBufs (keyOf exA) (fun _ => 0) = .ok (m, true) ∧ m 4176 = 8264) ∧
      l.assignAll exBufs (fun _ => 0) = .ok (fun _ => 0, false) := by
  refine ⟨_, ⟨[.add exA, .add exIllegal], rfl⟩, by decide, by decide, ?_, ?_⟩
  · refine ⟨fun b => if b = 4176 then 8264 else 0, ?_, by decide⟩
    show kernel _ [some exA] 1 0 _ true = _
    rw [kernel_eq_trace _ _ _ _ _ _ _ rfl, show indices _ 1 0 = [0] from by
      rw [indices, dif_pos (by decide), indices, dif_neg (by decide)]]
    rfl
  · exact C86_assign_stops _ _ [] _ ⟨0, 0⟩ _ _ _ rfl rfl
      (C86_no_buffer _ _ _ _ (Or.inl (by decide)))

/-- The lists of such a job do exist: the buffers of the one item are there. -/
example : ∃ l m', Reached 1 l ∧ l.has exA = true ∧ l.assignAll exBufs (fun _ => 0) = .ok (m', true) ∧
    m' 4176 = 8264 := by
  have hr : Reached 1 ⟨[(⟨1, 2⟩, ⟨[exA], 0⟩)], [⟨1, 2⟩]⟩ := ⟨[.add exA], rfl⟩
  have hall : ∀ it, Lists.has ⟨[(⟨1, 2⟩, ⟨[exA], 0⟩)], [⟨1, 2⟩]⟩ it = true → it = exA := by
    intro it h
    rw [has_iff, items_eq] at h
    simp only [mapFind] at h
    split_ifs at h with hk
    · simpa using h
    · exact absurd h List.not_mem_nil
  obtain ⟨m', e, e1, -⟩ := C86_assign_all hr exBufs (fun _ => 0)
    (by
      intro it h
      rw [hall it h]
      exact ⟨exCfg, rfl, ⟨by decide, by decide, by decide, by decide, by decide, by decide, by decide,
        by decide, by decide⟩, ⟨by decide, by decide, by decide, by decide, by decide, by decide, by decide,
        by decide, by decide⟩⟩)
    (by
      intro a b _ _ ha hb _ _ _
      rw [hall a ha, hall b hb])
  exact ⟨_, m', hr, by decide, e, e1 exA exCfg (by decide) rfl⟩

/-- **C86 is false of the code**: clearing the older job removes the items, but the job still lists their keys;
once they are added again, it lists them twice. -/
theorem C86_old_clear_violated :
    (∀ l : Lists, l.clearOld.numPairs = l.numPairs ∧ l.clearOld.total = 0) ∧
    ∃ l l', Reached 1 l ∧ l.clearOld.keys = [⟨1, 2⟩] ∧ l.clearOld.items ⟨1, 2⟩ = [] ∧
      l.clearOld.addItem 1 exA = .ok (l', some exA) ∧ l'.keys = [⟨1, 2⟩, ⟨1, 2⟩] :=
  ⟨fun _ => ⟨rfl, rfl⟩, _, _, ⟨[.add exA], rfl⟩, by decide, by decide, rfl, by decide⟩

/-- **C86 is false of the code**: a copy of the older job has the items but lists no keys. -/
theorem C86_old_copy_violated :
    (∀ l : Lists, l.copyOld.numPairs = 0 ∧ l.copyOld.total = l.total ∧ ∀ k, l.copyOld.items k = l.items k) ∧
    ∃ l, Reached 1 l ∧ l.copyOld.total = 1 ∧ (l.copyOld.pairs [⟨9, 9⟩]) = ([⟨0, 0⟩], 0) ∧
      l.copyOld.remove exA = .ub :=
  ⟨fun _ => ⟨rfl, rfl, fun _ => rfl⟩, _, ⟨[.add exA], rfl⟩, by decide, by decide, by decide⟩

end SixTrack
