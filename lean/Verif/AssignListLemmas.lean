import Verif.AssignList
import Mathlib.Data.List.Basic
import Mathlib.Tactic.ByContra
import Mathlib.Tactic.SplitIfs

/-! # Lemmas on the lists of address assignments of a job -/

namespace SixTrack.AssignList
open SixTrack.Assign

theorem less_iff (a b : Key) : a.less b = true ↔ a.dest < b.dest ∨ a.dest = b.dest ∧ a.src < b.src := by
  simp [Key.less]

theorem less_trans {a b c : Key} (h : a.less b = true) (h' : b.less c = true) : a.less c = true := by
  rw [less_iff] at *
  omega

theorem less_irrefl (a : Key) : a.less a = false := by
  rw [← Bool.not_eq_true, less_iff]
  omega

theorem less_asymm {a b : Key} (h : a.less b = true) : b.less a = false := by
  rw [less_iff] at h
  rw [← Bool.not_eq_true, less_iff]
  omega

theorem less_total {a b : Key} (h : a ≠ b) (h' : a.less b = false) : b.less a = true := by
  rw [← Bool.not_eq_true, less_iff] at h'
  rw [less_iff]
  by_contra h2
  apply h
  cases a
  cases b
  simp only [Key.mk.injEq] at *
  omega

theorem less_ne {a b : Key} (h : a.less b = true) : a ≠ b := by
  rintro rfl
  rw [less_irrefl] at h
  exact absurd h (by decide)

theorem valid_true (it : Item) : valid it = true := by
  unfold valid
  cases it.destRaw <;> cases it.srcRaw <;> rfl

theorem areEqual_iff (a b : Item) : areEqual a b = true ↔ a = b := by
  cases a
  cases b
  simp [areEqual, and_assoc]

/-- Sorted lists of keys without repetitions -/
def Sorted (ks : List Key) : Prop := ks.Pairwise fun a b => a.less b = true

theorem mem_insertKey {k x : Key} {ks : List Key} : x ∈ insertKey k ks ↔ x = k ∨ x ∈ ks := by
  induction ks with
  | nil => simp [insertKey]
  | cons a ks ih =>
    unfold insertKey
    split_ifs
    · rw [List.mem_cons, ih, List.mem_cons]
      tauto
    · rw [List.mem_cons]

theorem sorted_insertKey {k : Key} {ks : List Key} (h : Sorted ks) (hk : k ∉ ks) :
    Sorted (insertKey k ks) := by
  induction ks with
  | nil => exact List.pairwise_singleton _ _
  | cons a ks ih =>
    have h' := List.pairwise_cons.1 h
    unfold insertKey
    split_ifs with hl
    · refine List.pairwise_cons.2 ⟨fun x hx => ?_, ih h'.2 fun h2 => hk (List.mem_cons_of_mem _ h2)⟩
      rcases mem_insertKey.1 hx with rfl | hx
      · exact hl
      · exact h'.1 x hx
    · have hka : k.less a = true :=
        less_total (fun e => hk (e ▸ List.mem_cons_self)) (by simpa using hl)
      refine List.pairwise_cons.2 ⟨fun x hx => ?_, h⟩
      rcases List.mem_cons.1 hx with rfl | hx
      · exact hka
      · exact less_trans hka (h'.1 x hx)

theorem insertKey_front {k : Key} {ks : List Key} (h : ∀ x ∈ ks, k.less x = true) :
    insertKey k ks = k :: ks := by
  cases ks with
  | nil => rfl
  | cons a ks =>
    unfold insertKey
    rw [if_neg (by simp [less_asymm (h a List.mem_cons_self)])]

theorem insertKey_back {k : Key} {ks : List Key} (h : ∀ x ∈ ks, x.less k = true) :
    insertKey k ks = ks ++ [k] := by
  induction ks with
  | nil => rfl
  | cons a ks ih =>
    unfold insertKey
    rw [if_pos (h a List.mem_cons_self), ih fun x hx => h x (List.mem_cons_of_mem _ hx)]
    rfl

theorem foldr_insertKey {k : Key} {ks : List Key} (h : Sorted ks) (hk : k ∉ ks) :
    ks.foldr insertKey [k] = insertKey k ks := by
  induction ks with
  | nil => rfl
  | cons a ks ih =>
    have h' := List.pairwise_cons.1 h
    rw [List.foldr_cons, ih h'.2 fun h2 => hk (List.mem_cons_of_mem _ h2)]
    have hak : a ≠ k := fun e => hk (e ▸ List.mem_cons_self)
    by_cases hl : a.less k = true
    · rw [insertKey_front]
      · show _ = insertKey k (a :: ks)
        rw [insertKey, if_pos hl]
      · intro x hx
        rcases mem_insertKey.1 hx with rfl | hx
        · exact hl
        · exact h'.1 x hx
    · have hka := less_total hak (by simpa using hl)
      rw [insertKey_front fun x hx => less_trans hka (h'.1 x hx), insertKey, if_pos hka,
        insertKey_front h'.1]
      rw [insertKey, if_neg hl]

theorem pushKey_eq {k : Key} {ks : List Key} (h : Sorted ks) (hk : k ∉ ks) :
    pushKey ks k = insertKey k ks := by
  unfold pushKey
  split
  · rename_i e
    rw [List.getLast?_eq_none_iff.1 e]
    rfl
  · rename_i x e
    split_ifs with hl
    · rw [insertKey_back]
      intro y hy
      obtain ⟨init, rfl⟩ := List.getLast?_eq_some_iff.1 e
      rcases List.mem_append.1 hy with hy | hy
      · exact less_trans ((List.pairwise_append.1 h).2.2 y hy x List.mem_cons_self) hl
      · rw [List.mem_singleton.1 hy]
        exact hl
    · unfold sortKeys
      rw [List.foldr_append]
      exact foldr_insertKey h hk

theorem eraseIdx_lowerBound {k : Key} {ks : List Key} (h : Sorted ks) (hk : k ∈ ks) :
    lowerBound ks k < ks.length ∧ ks.eraseIdx (lowerBound ks k) = ks.filter (fun x => x ≠ k) := by
  induction ks with
  | nil => exact absurd hk List.not_mem_nil
  | cons a ks ih =>
    have h' := List.pairwise_cons.1 h
    unfold lowerBound at *
    by_cases hl : a.less k = true
    · have hmem : k ∈ ks := by
        rcases List.mem_cons.1 hk with rfl | hk
        · exact absurd rfl (less_ne hl)
        · exact hk
      obtain ⟨h1, h2⟩ := ih h'.2 hmem
      rw [List.findIdx_cons]
      simp only [hl, Bool.not_true, cond_false]
      refine ⟨by simpa using h1, ?_⟩
      rw [List.eraseIdx_cons_succ, h2, List.filter_cons_of_pos (by simpa using less_ne hl)]
    · have hak : a = k := by
        rcases List.mem_cons.1 hk with hk | hk
        · exact hk.symm
        · exact absurd (h'.1 k hk) hl
      subst hak
      rw [List.findIdx_cons]
      simp only [less_irrefl, Bool.not_false, cond_true]
      refine ⟨by simp, ?_⟩
      rw [List.eraseIdx_cons_zero, List.filter_cons_of_neg (by simp), List.filter_eq_self.2]
      intro x hx
      simpa using (less_ne (h'.1 x hx)).symm

/-! ## The map -/

theorem mapFind_none {m : List (Key × ItemBuf)} {k : Key} :
    mapFind m k = none ↔ k ∉ m.map Prod.fst := by
  induction m with
  | nil => simp [mapFind]
  | cons e m ih =>
    obtain ⟨k', b⟩ := e
    unfold mapFind
    split_ifs with h
    · simp [h]
    · rw [ih, List.map_cons, List.mem_cons, not_or]
      exact ⟨fun h' => ⟨fun e => h e.symm, h'⟩, fun h' => h'.2⟩

theorem mapFind_some_mem {m : List (Key × ItemBuf)} {k : Key} {b : ItemBuf} (h : mapFind m k = some b) :
    k ∈ m.map Prod.fst := by
  by_contra h'
  rw [mapFind_none.2 h'] at h
  cases h

theorem mapFind_insert {m : List (Key × ItemBuf)} {k : Key} (b : ItemBuf) (h : mapFind m k = none)
    (k' : Key) : mapFind (mapInsert m k b) k' = if k' = k then some b else mapFind m k' := by
  induction m with
  | nil =>
    unfold mapInsert mapFind mapFind
    simp only [eq_comm]
  | cons e m ih =>
    obtain ⟨a, c⟩ := e
    have ha : a ≠ k := by
      intro e
      rw [mapFind, if_pos e] at h
      cases h
    have h' : mapFind m k = none := by rwa [mapFind, if_neg ha] at h
    unfold mapInsert
    split_ifs with hl hk hk
    · subst hk
      rw [mapFind, if_pos rfl]
    · rw [mapFind, if_neg (Ne.symm hk)]
    · subst hk
      rw [mapFind, if_neg ha, ih h', if_pos rfl]
    · rw [mapFind, mapFind, ih h', if_neg hk]

theorem mapFind_set (m : List (Key × ItemBuf)) (k : Key) (b : ItemBuf) (k' : Key) :
    mapFind (mapSet m k b) k' =
      if k' = k then (mapFind m k).map (fun _ => b) else mapFind m k' := by
  unfold mapSet
  induction m with
  | nil => simp [mapFind]
  | cons e m ih =>
    obtain ⟨a, c⟩ := e
    rw [List.map_cons]
    by_cases ha : a = k
    · subst ha
      rw [if_pos rfl, mapFind]
      by_cases hk : k' = a
      · subst hk
        rw [if_pos rfl, if_pos rfl, mapFind, if_pos rfl]
        rfl
      · rw [if_neg (Ne.symm hk), if_neg hk, ih, if_neg hk, mapFind, if_neg (Ne.symm hk)]
    · rw [if_neg ha, mapFind]
      by_cases hk : k' = k
      · subst hk
        rw [if_neg ha, ih, if_pos rfl, if_pos rfl, mapFind, if_neg ha]
      · rw [ih, if_neg hk, if_neg hk, mapFind]

theorem mapFind_erase (m : List (Key × ItemBuf)) (k k' : Key) :
    mapFind (mapErase m k) k' = if k' = k then none else mapFind m k' := by
  unfold mapErase
  induction m with
  | nil => simp [mapFind]
  | cons e m ih =>
    obtain ⟨a, c⟩ := e
    by_cases ha : a = k
    · subst ha
      rw [List.filter_cons_of_neg (by simp), ih]
      by_cases hk : k' = a
      · rw [if_pos hk, if_pos hk]
      · rw [if_neg hk, if_neg hk, mapFind, if_neg (Ne.symm hk)]
    · rw [List.filter_cons_of_pos (by simpa using ha), mapFind, ih]
      by_cases hk : k' = k
      · subst hk
        rw [if_neg ha, if_pos rfl, if_pos rfl]
      · rw [if_neg hk, if_neg hk, mapFind]

theorem keys_insert {m : List (Key × ItemBuf)} {k : Key} (b : ItemBuf) (h : k ∉ m.map Prod.fst) :
    (mapInsert m k b).map Prod.fst = insertKey k (m.map Prod.fst) := by
  induction m with
  | nil => rfl
  | cons e m ih =>
    obtain ⟨a, c⟩ := e
    rw [List.map_cons, List.mem_cons, not_or] at h
    unfold mapInsert
    rw [List.map_cons, insertKey]
    split_ifs with h1 h2 h2
    · exact absurd (less_asymm h1) (by simp [h2])
    · rfl
    · rw [List.map_cons, ih h.2]
    · exact absurd (less_total h.1 (by simpa using h1)) (by simpa using h2)

theorem keys_set (m : List (Key × ItemBuf)) (k : Key) (b : ItemBuf) :
    (mapSet m k b).map Prod.fst = m.map Prod.fst := by
  unfold mapSet
  rw [List.map_map]
  apply List.map_congr_left
  intro e _
  simp only [Function.comp_apply]
  split_ifs with h
  · exact h.symm
  · rfl

theorem keys_erase (m : List (Key × ItemBuf)) (k : Key) :
    (mapErase m k).map Prod.fst = (m.map Prod.fst).filter (fun x => x ≠ k) := by
  unfold mapErase
  rw [List.filter_map]
  rfl

theorem mapErase_set (m : List (Key × ItemBuf)) (k : Key) (b : ItemBuf) :
    mapErase (mapSet m k b) k = mapErase m k := by
  unfold mapErase mapSet
  induction m with
  | nil => rfl
  | cons e m ih =>
    rw [List.map_cons]
    by_cases h : e.1 = k
    · rw [if_pos h, List.filter_cons_of_neg (by simp), List.filter_cons_of_neg (by simpa using h), ih]
    · rw [if_neg h, List.filter_cons_of_pos (by simpa using h), List.filter_cons_of_pos (by simpa using h),
        ih]

/-! ## What holds of the lists of every job -/

/-- The keys are those of the map in order; every key has items, which belong to it and differ from each
other; the room is what was there at the beginning less the number of items. -/
structure Good (r : Nat) (l : Lists) : Prop where
  sorted : Sorted (l.map.map Prod.fst)
  keys : l.keys = l.map.map Prod.fst
  items : ∀ k b, mapFind l.map k = some b →
    b.items ≠ [] ∧ (∀ x ∈ b.items, keyOf x = k) ∧ b.items.Nodup ∧ b.room = r - b.items.length

theorem good_new (r : Nat) : Good r Lists.new :=
  ⟨List.Pairwise.nil, rfl, fun _ _ h => by cases h⟩

theorem add_outside (b : ItemBuf) (x : Item) :
    b.add x false = .ok ⟨b.items ++ [x], b.room - 1⟩ := by
  unfold ItemBuf.add
  by_cases h : b.room = 0
  · rw [if_pos h, if_neg (by decide), h]
  · rw [if_neg h]

theorem find_lt {l : Lists} {it : Item} {b : ItemBuf} (h : mapFind l.map (keyOf it) = some b) :
    l.find it < b.items.length ↔ it ∈ b.items := by
  unfold Lists.find
  rw [h]
  simp only [List.findIdx_lt_length, areEqual_iff]
  exact ⟨fun ⟨x, hx, e⟩ => e ▸ hx, fun hx => ⟨it, hx, rfl⟩⟩

theorem find_get {l : Lists} {it : Item} {b : ItemBuf} (h : mapFind l.map (keyOf it) = some b)
    (hm : it ∈ b.items) : b.items[l.find it]? = some it := by
  have hlt := (find_lt h).2 hm
  rw [List.getElem?_eq_getElem hlt]
  unfold Lists.find at hlt ⊢
  rw [h] at hlt
  simp only [h] at hlt ⊢
  have := List.findIdx_getElem (w := hlt)
  rw [areEqual_iff] at this
  rw [this]

/-- What the outcome of adding an item is. -/
theorem add_good {r : Nat} {l : Lists} (hg : Good r l) (it : Item) :
    ∃ l' i, l.add r it = .ok (l', some i) ∧ Good r l' ∧ l'.get (keyOf it) i = some it ∧
      (∀ k, mapFind l'.map k = if k = keyOf it then
          some (match mapFind l.map k with
            | none => ⟨[it], r - 1⟩
            | some b => if it ∈ b.items then b else ⟨b.items ++ [it], b.room - 1⟩)
        else mapFind l.map k) ∧
      l'.keys = if keyOf it ∈ l.keys then l.keys else insertKey (keyOf it) l.keys := by
  unfold Lists.add
  rw [if_pos (valid_true it)]
  cases hf : mapFind l.map (keyOf it) with
  | none =>
    have hk := mapFind_none.1 hf
    have hp : pushKey l.keys (keyOf it) = insertKey (keyOf it) (l.map.map Prod.fst) := by
      rw [hg.keys, pushKey_eq hg.sorted hk]
    refine ⟨⟨mapInsert l.map (keyOf it) ⟨[it], r - 1⟩, pushKey l.keys (keyOf it)⟩, 0, ?_, ?_, ?_, ?_, ?_⟩
    · simp only [add_outside]
      rfl
    · refine ⟨?_, ?_, ?_⟩
      · rw [keys_insert _ hk]
        exact sorted_insertKey hg.sorted hk
      · rw [keys_insert _ hk]
        exact hp
      · intro k b hb
        simp only at hb
        rw [mapFind_insert _ hf] at hb
        split_ifs at hb with hkk
        · cases hb
          subst hkk
          exact ⟨by simp, by simp, by simp, rfl⟩
        · exact hg.items k b hb
    · unfold Lists.get
      simp only
      rw [mapFind_insert _ hf, if_pos rfl]
      rfl
    · intro k
      simp only
      rw [mapFind_insert _ hf]
      split_ifs with hkk
      · subst hkk
        rw [hf]
      · rfl
    · rw [hg.keys, if_neg hk, ← hp, hg.keys]
  | some b =>
    obtain ⟨h1, h2, h3, h4⟩ := hg.items _ b hf
    have hk : keyOf it ∈ l.keys := by
      rw [hg.keys]
      exact mapFind_some_mem hf
    by_cases hm : it ∈ b.items
    · refine ⟨l, l.find it, ?_, hg, ?_, ?_, ?_⟩
      · simp only
        rw [if_pos ((find_lt hf).2 hm)]
      · unfold Lists.get
        rw [hf]
        exact find_get hf hm
      · intro k
        split_ifs with hkk
        · subst hkk
          rw [hf]
          simp only
          rw [if_pos hm]
        · rfl
      · rw [if_pos hk]
    · refine ⟨⟨mapSet l.map (keyOf it) ⟨b.items ++ [it], b.room - 1⟩, l.keys⟩, b.items.length, ?_, ?_, ?_,
        ?_, ?_⟩
      · simp only [add_outside]
        rw [if_neg (fun h => hm ((find_lt hf).1 h))]
        rfl
      · refine ⟨?_, ?_, ?_⟩
        · rw [keys_set]
          exact hg.sorted
        · rw [keys_set]
          exact hg.keys
        · intro k c hc
          simp only at hc
          rw [mapFind_set, hf] at hc
          split_ifs at hc with hkk
          · cases hc
            subst hkk
            refine ⟨by simp, ?_, ?_, ?_⟩
            · intro x hx
              rcases List.mem_append.1 hx with hx | hx
              · exact h2 x hx
              · rw [List.mem_singleton.1 hx]
            · rw [List.nodup_append]
              refine ⟨h3, by simp, ?_⟩
              intro x hx y hy
              rw [List.mem_singleton.1 hy]
              rintro rfl
              exact hm hx
            · simp only [List.length_append, List.length_singleton]
              omega
          · exact hg.items k c hc
      · unfold Lists.get
        simp only
        rw [mapFind_set, if_pos rfl, hf]
        simp
      · intro k
        simp only
        rw [mapFind_set, hf]
        split_ifs with hkk
        · subst hkk
          rw [hf]
          simp only [Option.map_some]
          rw [if_neg hm]
        · rfl
      · rw [if_pos hk]

theorem copyKept_eq (xs : List Item) : ∀ b : ItemBuf,
    copyKept b xs = if xs.length ≤ b.room then .ok ⟨b.items ++ xs, b.room - xs.length⟩ else .ub := by
  induction xs with
  | nil =>
    intro b
    simp [copyKept]
  | cons x xs ih =>
    intro b
    unfold copyKept ItemBuf.add
    by_cases h : b.room = 0
    · rw [if_pos h, if_pos rfl, if_neg (by rw [h, List.length_cons]; omega)]
      rfl
    · rw [if_neg h, Res.ok_bind, ih]
      simp only [List.length_cons]
      by_cases h' : xs.length ≤ b.room - 1
      · rw [if_pos h', if_pos (by omega), List.append_assoc, List.singleton_append]
        congr 2
        omega
      · rw [if_neg h', if_neg (by omega)]

/-- What the outcome of removing an item is. -/
theorem removeAt_good {r : Nat} {l : Lists} (hg : Good r l) (k : Key) (i : Nat) :
    l.removeAt k i =
      if i < l.num k then
        if l.num k - 1 ≤ r - l.num k then
          .ok (⟨mapErase l.map k, l.keys.filter (fun x => x ≠ k)⟩, true)
        else .ub
      else .ok (l, false) := by
  unfold Lists.removeAt Lists.num
  cases hf : mapFind l.map k with
  | none =>
    simp
  | some b =>
    obtain ⟨h1, h2, h3, h4⟩ := hg.items _ b hf
    simp only
    by_cases hi : i < b.items.length
    · rw [if_pos hi, if_pos hi, copyKept_eq, List.length_eraseIdx_of_lt hi, h4]
      by_cases hr : b.items.length - 1 ≤ r - b.items.length
      · rw [if_pos hr, if_pos hr, Res.ok_bind]
        have hk : k ∈ l.keys := by
          rw [hg.keys]
          exact mapFind_some_mem hf
        obtain ⟨e1, e2⟩ := eraseIdx_lowerBound (by rw [hg.keys]; exact hg.sorted) hk
        unfold dropEmpty Lists.num
        simp only
        rw [mapFind_set, if_pos rfl, hf]
        simp only [Option.map_some, List.length_nil, if_true]
        rw [if_pos e1, Res.ok_bind, e2, mapErase_set]
      · rw [if_neg hr, if_neg hr]
        rfl
    · rw [if_neg hi, if_neg hi]

theorem good_erase {r : Nat} {l : Lists} (hg : Good r l) (k : Key) :
    Good r ⟨mapErase l.map k, l.keys.filter (fun x => x ≠ k)⟩ := by
  refine ⟨?_, ?_, ?_⟩
  · rw [keys_erase]
    exact List.Pairwise.filter _ hg.sorted
  · simp only
    rw [keys_erase, hg.keys]
  · intro k' b hb
    simp only at hb
    rw [mapFind_erase] at hb
    split_ifs at hb
    exact hg.items k' b hb

theorem good_removeAt {r : Nat} {l l' : Lists} {k : Key} {i : Nat} {ok : Bool} (hg : Good r l)
    (h : l.removeAt k i = .ok (l', ok)) : Good r l' := by
  rw [removeAt_good hg] at h
  split_ifs at h
  · cases h
    exact good_erase hg k
  · cases h
    exact hg

/-- What holds of the lists of every job holds after every operation. -/
theorem good_step {r : Nat} {l l' : Lists} {o : Op} (hg : Good r l) (h : l.step r o = .ok l') :
    Good r l' := by
  cases o with
  | add it =>
    obtain ⟨l2, i, e, hg', -⟩ := add_good hg it
    simp only [Lists.step, Lists.addItem, if_pos (valid_true it), e, Res.ok_bind] at h
    cases h
    exact hg'
  | remove it =>
    obtain ⟨⟨l2, ok⟩, e, e'⟩ := Res.bind_eq_ok.1 h
    cases e'
    exact good_removeAt hg e
  | removeAt k i =>
    obtain ⟨⟨l2, ok⟩, e, e'⟩ := Res.bind_eq_ok.1 h
    cases e'
    exact good_removeAt hg e

theorem good_run {r : Nat} (os : List Op) : ∀ {l l' : Lists}, Good r l → l.run r os = .ok l' → Good r l' := by
  induction os with
  | nil =>
    intro l l' hg h
    cases h
    exact hg
  | cons o os ih =>
    intro l l' hg h
    obtain ⟨l2, e, e'⟩ := Res.bind_eq_ok.1 h
    exact ih (good_step hg e) e'

end SixTrack.AssignList
