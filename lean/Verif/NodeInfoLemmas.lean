import Verif.NodeInfo
import Mathlib.Data.List.Basic
import Mathlib.Tactic.SplitIfs

/-! # Lemmas about descriptions of compute nodes -/

namespace SixTrack.CInfo

open SixTrack.Node

/-- A block that has not been freed. -/
def Live (m : Mem) (q : Nat) : Prop := ∃ b, m[q]? = some (some b)

/-- The blocks of the texts of an info. -/
def Info.ptrs (i : Info) : List Nat :=
  i.arch.toList ++ i.platform.toList ++ i.name.toList ++ i.description.toList

/-- The texts of an info have blocks of their own. -/
def Owned (m : Mem) (i : Info) : Prop := i.ptrs.Nodup ∧ ∀ q ∈ i.ptrs, Live m q

/-- Memory with some blocks freed. -/
def kill (m : Mem) (ps : List Nat) : Mem := ps.foldl (fun m q => m.set q none) m

theorem kill_append (m : Mem) (a b : List Nat) : kill m (a ++ b) = kill (kill m a) b := by
  simp [kill]

theorem kill_length (m : Mem) (ps : List Nat) : (kill m ps).length = m.length := by
  induction ps generalizing m with
  | nil => rfl
  | cons p ps ih => exact (ih (m.set p none)).trans (by simp)

theorem kill_get (m : Mem) (ps : List Nat) (q : Nat) :
    (kill m ps)[q]? = if q ∈ ps ∧ q < m.length then some none else m[q]? := by
  induction ps generalizing m with
  | nil => simp [kill]
  | cons p ps ih =>
    change (kill (m.set p none) ps)[q]? = _
    rw [ih]
    by_cases hq : q ∈ ps ∧ q < m.length
    · rw [if_pos (by simpa using hq), if_pos ⟨by simp [hq.1], hq.2⟩]
    · rw [if_neg (by simpa using hq), List.getElem?_set]
      by_cases hp : p = q
      · subst hp
        by_cases hl : p < m.length
        · rw [if_pos rfl, if_pos hl, if_pos ⟨by simp, hl⟩]
        · rw [if_pos rfl, if_neg hl, if_neg (by simp [hl]), List.getElem?_eq_none (by omega)]
      · rw [if_neg hp, if_neg]
        rintro ⟨h1, h2⟩
        rcases List.mem_cons.mp h1 with h | h
        · exact hp h.symm
        · exact hq ⟨h, h2⟩

theorem Live.lt {m : Mem} {q : Nat} (h : Live m q) : q < m.length := by
  obtain ⟨b, hb⟩ := h
  exact (List.getElem?_eq_some_iff.mp hb).1

theorem Live.kill {m : Mem} {q : Nat} (h : Live m q) {ps : List Nat} (hq : q ∉ ps) : Live (kill m ps) q := by
  obtain ⟨b, hb⟩ := h
  exact ⟨b, by rw [kill_get, if_neg (fun h => hq h.1), hb]⟩

theorem free_opt (m r : Mem) (p : Ptr) (h : ∀ q ∈ p.toList, Live m q) :
    free (m ++ r) p = .ok (kill m p.toList ++ r) := by
  cases p with
  | none => rfl
  | some q =>
    have hl := h q (by simp)
    have hlt := hl.lt
    obtain ⟨b, hb⟩ := hl
    have e : (m ++ r)[q]? = some (some b) := by rw [List.getElem?_append_left hlt, hb]
    simp only [free, e]
    rw [List.set_append_left _ _ hlt]
    rfl

theorem free_info {m : Mem} {i : Info} (h : Owned m i) (r : Mem) :
    freeInfo (m ++ r) i = .ok (kill m i.ptrs ++ r, Info.preset) := by
  obtain ⟨hn, hl⟩ := h
  unfold Info.ptrs at hn hl ⊢
  rw [List.nodup_append, List.nodup_append, List.nodup_append] at hn
  obtain ⟨⟨⟨-, -, h12⟩, -, h3⟩, -, h4⟩ := hn
  unfold freeInfo
  rw [free_opt m r i.arch (fun q hq => hl q (by simp [hq])), Res.ok_bind,
    free_opt _ r i.platform, Res.ok_bind, free_opt _ r i.name, Res.ok_bind, free_opt _ r i.description, Res.ok_bind]
  · simp only [kill_append]
  · intro q hq
    rw [← kill_append, ← kill_append]
    refine (hl q (by simp [hq])).kill ?_
    intro hm
    exact h4 q (by simpa using hm) q hq rfl
  · intro q hq
    rw [← kill_append]
    refine (hl q (by simp [hq])).kill ?_
    intro hm
    exact h3 q hm q hq rfl
  · intro q hq
    refine (hl q (by simp [hq])).kill ?_
    intro hm
    exact h12 q hm q hq rfl

/-- A cleared block for a text of the given length. -/
def zeros (n : Nat) : Option Block := some (List.replicate (n + 1) (some 0))

theorem store_mid (m r : Mem) (b : Block) (bs : List Nat) (k : Nat) (hk : k = m.length) (h : bs.length ≤ b.length) :
    store (m ++ some b :: r) (some k) bs = .ok (m ++ some (bs.map some ++ b.drop bs.length) :: r) := by
  subst hk
  simp [store, h]

theorem store_mid_ub (m r : Mem) (b : Block) (bs : List Nat) (k : Nat) (hk : k = m.length)
    (h : b.length < bs.length) : store (m ++ some b :: r) (some k) bs = .ub := by
  subst hk
  simp [store, Nat.not_le.mpr h]

theorem memset_mid (m r : Mem) (n k : Nat) (hk : k = m.length) (b : Block) (hb : b.length = n + 1) :
    memset0 (m ++ some b :: r) (some k) (n + 1) = .ok (m ++ zeros n :: r) := by
  unfold memset0
  rw [store_mid m r b _ k hk (by simp [hb])]
  simp [zeros, hb]

theorem zeroed_ok (av : Bool) (m : Mem) (n : Nat) (h : n = 0 ∨ av = true) :
    zeroed av m n = .ok (m ++ (if n = 0 then [] else [zeros n]), if n = 0 then none else some m.length) := by
  unfold zeroed
  by_cases hn : n = 0
  · simp [hn]
  · have ha : av = true := h.resolve_left hn
    rw [if_pos (by omega)]
    simp only [malloc, ha, if_true, ne_eq, reduceCtorEq, not_false_eq_true]
    rw [memset_mid m [] n _ rfl _ (by simp)]
    simp [hn]

theorem zeroed_none (m : Mem) (n : Nat) : zeroed false m n = .ok (m, none) := by
  unfold zeroed
  split <;> simp [malloc]

/-- What `reserve` adds to the memory. -/
def fresh (la lp ln ld : Nat) : Mem :=
  zeros la :: zeros ln :: ((if lp = 0 then [] else [zeros lp]) ++ (if ld = 0 then [] else [zeros ld]))

/-- The info after `reserve`. -/
def freshInfo (k lp ld : Nat) : Info :=
  { id := ⟨-1, -1⟩, arch := some k, name := some (k + 1)
    platform := if lp = 0 then none else some (k + 2)
    description := if ld = 0 then none else some (if lp = 0 then k + 2 else k + 3) }

theorem reserve_ok {av : Nat → Bool} {m : Mem} {i : Info} (h : Owned m i) {la lp ln ld : Nat}
    (ha : 0 < la) (hn : 0 < ln) (h0 : av 0 = true) (h1 : av 1 = true) (h2 : lp = 0 ∨ av 2 = true)
    (h3 : ld = 0 ∨ av 3 = true) :
    reserve av m i la lp ln ld = .ok (kill m i.ptrs ++ fresh la lp ln ld, freshInfo m.length lp ld, true) := by
  unfold reserve
  rw [if_pos ⟨ha, hn⟩]
  simp only [malloc, h0, h1, if_true]
  rw [zeroed_ok _ _ _ h2, Res.ok_bind, zeroed_ok _ _ _ h3, Res.ok_bind, if_pos]
  · simp only [List.append_assoc]
    rw [free_info h, Res.ok_bind]
    simp only [List.cons_append, List.nil_append]
    rw [memset_mid _ _ la _ (by rw [kill_length]) _ (by simp), Res.ok_bind]
    rw [show ∀ (x : Mem) (y : Option Block) (z : Mem), x ++ y :: z = (x ++ [y]) ++ z by simp]
    rw [memset_mid _ _ ln _ (by simp [kill_length]) _ (by simp)]
    simp only [Res.ok_bind, fresh, freshInfo, Info.preset]
    congr 2
    · simp
    · simp only [List.length_append, List.length_cons, List.length_nil, Prod.mk.injEq, Info.mk.injEq, and_true,
        true_and]
      by_cases hd : ld = 0 <;> by_cases hp : lp = 0 <;> simp [hd, hp]
  · refine ⟨by simp, by simp, ?_, ?_⟩
    · by_cases hp : lp = 0 <;> simp [hp]
    · by_cases hp : ld = 0 <;> simp [hp]

/-- What one allocation adds to the memory. -/
def Alloc (m w : Mem) (p : Ptr) : Prop := (w = [] ∧ p = none) ∨ ∃ b, w = [some b] ∧ p = some m.length

theorem malloc_alloc (av : Bool) (m : Mem) (n : Nat) :
    ∃ w, (malloc av m n).1 = m ++ w ∧ Alloc m w (malloc av m n).2 ∧ (av = false → (malloc av m n).2 = none) := by
  unfold malloc
  cases av
  · exact ⟨[], by simp, .inl ⟨rfl, rfl⟩, fun _ => rfl⟩
  · exact ⟨_, rfl, .inr ⟨_, rfl, rfl⟩, fun h => absurd h (by simp)⟩

theorem zeroed_alloc (av : Bool) (m : Mem) (n : Nat) :
    ∃ w p, zeroed av m n = .ok (m ++ w, p) ∧ Alloc m w p ∧ (av = false → p = none) := by
  cases av
  · exact ⟨[], none, by rw [zeroed_none]; simp, .inl ⟨rfl, rfl⟩, fun _ => rfl⟩
  · refine ⟨_, _, zeroed_ok true m n (.inr rfl), ?_, fun h => absurd h (by simp)⟩
    by_cases hn : n = 0
    · exact .inl (by simp [hn])
    · exact .inr ⟨_, by simp [hn, zeros]; rfl, by simp [hn]⟩

theorem free_alloc {m w : Mem} {p : Ptr} (h : Alloc m w p) (r : Mem) :
    ∃ w', (∀ x ∈ w', x = none) ∧ w'.length = w.length ∧ free (m ++ (w ++ r)) p = .ok (m ++ (w' ++ r)) := by
  rcases h with ⟨rfl, rfl⟩ | ⟨b, rfl, rfl⟩
  · exact ⟨[], by simp, rfl, rfl⟩
  · exact ⟨[none], by simp, rfl, by simp [free]⟩

theorem Alloc.congr {m m' w : Mem} {p : Ptr} (h : Alloc m w p) (hm : m'.length = m.length) : Alloc m' w p := by
  unfold Alloc at h ⊢
  rwa [hm]

theorem reserve_fail {av : Nat → Bool} {m : Mem} {i : Info} {la lp ln ld : Nat}
    (hf : ¬(0 < la ∧ 0 < ln ∧ av 0 = true ∧ av 1 = true ∧ (lp = 0 ∨ av 2 = true) ∧ (ld = 0 ∨ av 3 = true))) :
    ∃ r : Mem, (∀ x ∈ r, x = none) ∧ reserve av m i la lp ln ld = .ok (m ++ r, i, false) := by
  unfold reserve
  by_cases h0 : 0 < la ∧ 0 < ln
  swap
  · exact ⟨[], by simp, by rw [if_neg h0]; simp⟩
  rw [if_pos h0]
  obtain ⟨wa, ea, aa, na⟩ := malloc_alloc (av 0) m (la + 1)
  obtain ⟨wn, en, an, nn⟩ := malloc_alloc (av 1) (m ++ wa) (ln + 1)
  obtain ⟨wp, pp, ep, ap, np⟩ := zeroed_alloc (av 2) (m ++ wa ++ wn) lp
  obtain ⟨wd, pd, ed, ad, nd⟩ := zeroed_alloc (av 3) (m ++ wa ++ wn ++ wp) ld
  simp only [ea, en, ep, ed, Res.ok_bind]
  rw [if_neg]
  · obtain ⟨xa, dxa, lxa, fa⟩ := free_alloc aa (wn ++ (wp ++ wd))
    obtain ⟨xn, dxn, lxn, fn⟩ := free_alloc (an.congr (m' := m ++ xa) (by simp [lxa])) (wp ++ wd)
    obtain ⟨xp, dxp, lxp, fp⟩ := free_alloc (ap.congr (m' := m ++ xa ++ xn) (by simp [lxa, lxn])) wd
    obtain ⟨xd, dxd, lxd, fd⟩ := free_alloc (ad.congr (m' := m ++ xa ++ xn ++ xp) (by simp [lxa, lxn, lxp])) []
    simp only [List.append_assoc, List.append_nil] at fa fn fp fd ⊢
    rw [fa, Res.ok_bind, fn, Res.ok_bind, fp, Res.ok_bind, fd, Res.ok_bind]
    refine ⟨xa ++ (xn ++ (xp ++ xd)), ?_, rfl⟩
    intro x hx
    simp only [List.mem_append] at hx
    rcases hx with h | h | h | h
    exacts [dxa x h, dxn x h, dxp x h, dxd x h]
  · rintro ⟨ha, hn, hp, hd⟩
    refine hf ⟨h0.1, h0.2, ?_, ?_, ?_, ?_⟩
    · exact Bool.not_eq_false _ ▸ fun h => ha (na h)
    · exact Bool.not_eq_false _ ▸ fun h => hn (nn h)
    · exact hp.imp id fun h => Bool.not_eq_false _ ▸ fun h' => h (np h')
    · exact hd.imp id fun h => Bool.not_eq_false _ ▸ fun h' => h (nd h')

/-! Texts -/

theorem textOf_text (s : Str) (hs : 0 ∉ s) (r : Block) : textOf (s.map some ++ some 0 :: r) = .ok s := by
  induction s with
  | nil => simp [textOf]
  | cons c s ih =>
    have hc : c ≠ 0 := fun h => hs (by simp [h])
    simp only [List.map_cons, List.cons_append, textOf, if_neg hc]
    rw [ih (fun h => hs (by simp [h]))]
    rfl

theorem textOf_open (s : Str) (hs : 0 ∉ s) : textOf (s.map some) = .ub := by
  induction s with
  | nil => simp [textOf]
  | cons c s ih =>
    have hc : c ≠ 0 := fun h => hs (by simp [h])
    simp only [List.map_cons, textOf, if_neg hc]
    rw [ih (fun h => hs (by simp [h]))]
    rfl

theorem strncpy_self (m : Mem) (p : Ptr) (s : Str) : strncpy m p s s.length = store m p s := by
  simp [strncpy]

end SixTrack.CInfo
