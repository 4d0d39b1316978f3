import Verif.JobCopy
import Mathlib.Data.List.Nodup
import Mathlib.Data.List.Forall2
import Mathlib.Tactic.SplitIfs
import Mathlib.Tactic.Tauto

/-!
# Lemmas about copying and moving jobs
-/

namespace SixTrack.JobCopy
open SixTrack.BStore (Store)

/-- Numbers from `next` on have not been used. -/
def Heap.Ok (h : Heap) : Prop := ∀ p, h.next ≤ p → h.at_ p = none

/-- `h'` has the buffers of `h` and, in addition, the buffers `l`, which did not exist before. -/
structure Made (h h' : Heap) (l : List Nat) : Prop where
  ok : h'.Ok
  le : h.next ≤ h'.next
  same : ∀ p, p < h.next → h'.at_ p = h.at_ p
  nodup : l.Nodup
  mem : ∀ p, p ∈ l ↔ h.next ≤ p ∧ p < h'.next
  alive : ∀ p ∈ l, (h'.at_ p).isSome

theorem Made.refl {h : Heap} (hh : h.Ok) : Made h h [] :=
  ⟨hh, Nat.le_refl _, fun _ _ => rfl, List.nodup_nil, fun p => by simp, fun p hp => by cases hp⟩

theorem Made.trans {h h1 h2 : Heap} {l1 l2 : List Nat} (m1 : Made h h1 l1) (m2 : Made h1 h2 l2) :
    Made h h2 (l1 ++ l2) := by
  have e1 := m1.le
  have e2 := m2.le
  refine ⟨m2.ok, Nat.le_trans e1 e2, fun p hp => ?_, ?_, fun p => ?_, fun p hp => ?_⟩
  · rw [m2.same p (Nat.lt_of_lt_of_le hp e1), m1.same p hp]
  · refine List.Nodup.append m1.nodup m2.nodup ?_
    intro p hp1 hp2
    have := (m1.mem p).1 hp1
    have := (m2.mem p).1 hp2
    omega
  · rw [List.mem_append, m1.mem, m2.mem]
    omega
  · rcases List.mem_append.1 hp with hp | hp
    · rw [m2.same p ((m1.mem p).1 hp).2]
      exact m1.alive p hp
    · exact m2.alive p hp

theorem Made.perm {h h' : Heap} {l l' : List Nat} (m : Made h h' l) (hp : l.Perm l') : Made h h' l' :=
  ⟨m.ok, m.le, m.same, hp.nodup_iff.1 m.nodup, fun p => by rw [← hp.mem_iff]; exact m.mem p,
    fun p h' => m.alive p (hp.mem_iff.2 h')⟩

theorem Made.new {h : Heap} (hh : h.Ok) (b : Buf) : Made h (h.new b) [h.next] := by
  refine ⟨fun p hp => ?_, Nat.le_succ _, fun p hp => ?_, List.nodup_singleton _, fun p => ?_, fun p hp => ?_⟩
  · have : p ≠ h.next := by simp only [Heap.new] at hp; omega
    simp only [Heap.new, if_neg this]
    exact hh p (by simp only [Heap.new] at hp; omega)
  · simp only [Heap.new, if_neg (Nat.ne_of_lt hp)]
  · simp only [List.mem_singleton, Heap.new]; omega
  · simp only [List.mem_singleton] at hp
    simp [Heap.new, hp]

theorem Heap.ok_lt {h : Heap} (hh : h.Ok) {p : Nat} (hp : (h.at_ p).isSome) : p < h.next := by
  by_cases hc : h.next ≤ p
  · rw [hh p hc] at hp; cases hp
  · omega

theorem Heap.get_some {h : Heap} {p : Nat} {b : Buf} (hp : h.at_ p = some b) : h.get p = .ok b := by
  simp [Heap.get, hp]

/-- Copying what a pointer holds. -/
theorem copy_ok {h : Heap} (hh : h.Ok) {p : Option Nat} (hp : ∀ a ∈ p.toList, (h.at_ a).isSome) :
    ∃ h' q, h.copy p = .ok (h', q) ∧ Made h h' q.toList ∧ q.map h'.at_ = p.map h.at_ := by
  cases p with
  | none => exact ⟨h, none, rfl, Made.refl hh, rfl⟩
  | some a =>
    obtain ⟨b, hb⟩ := Option.isSome_iff_exists.1 (hp a (by simp))
    refine ⟨h.new b, some h.next, by simp [Heap.copy, Heap.get_some hb], Made.new hh b, ?_⟩
    simp [Heap.new, hb]

/-- Freeing buffers which exist. -/
theorem freeAll_ok : ∀ {l : List Nat} {h : Heap}, l.Nodup → (∀ p ∈ l, (h.at_ p).isSome) →
    ∃ h', h.freeAll l = .ok h' ∧ h'.next = h.next ∧ ∀ p, h'.at_ p = if p ∈ l then none else h.at_ p
  | [], h, _, _ => ⟨h, rfl, rfl, fun p => by simp⟩
  | a :: l, h, hn, ha => by
    obtain ⟨b, hb⟩ := Option.isSome_iff_exists.1 (ha a (by simp))
    rw [List.nodup_cons] at hn
    obtain ⟨h', e, hx, hs⟩ := freeAll_ok (l := l)
      (h := { h with at_ := fun q => if q = a then none else h.at_ q }) hn.2 (fun p hp => by
        have : p ≠ a := fun e => hn.1 (e ▸ hp)
        simp only [if_neg this]
        exact ha p (List.mem_cons_of_mem _ hp))
    refine ⟨h', ?_, hx, fun p => ?_⟩
    · simp only [Heap.freeAll, Heap.free, hb, Res.ok_bind, e]
    · rw [hs p]
      by_cases h1 : p ∈ l
      · simp [h1]
      · by_cases h2 : p = a <;> simp [h1, h2]

/-- A store which owns a buffer points to it. -/
def Store.Ok (s : Store) : Prop := s.own = none ∨ (s.cxx = s.own ∧ s.c99 = s.own)

theorem Store.Ok.owns {s : Store} (hs : Store.Ok s) : s.ownsBuffer = s.own.isSome := by
  obtain ⟨cxx, c99, own⟩ := s
  rcases hs with h | ⟨h1, h2⟩
  · simp only at h; subst h; simp [Store.ownsBuffer]
  · simp only at h1 h2; subst h1 h2
    cases c99 <;> simp [Store.ownsBuffer, Store.active]

/-- `s'` is a good copy of `s`: a borrowed buffer is the same, an owned one has a copy with the same contents. -/
def StoreAlike (h : Heap) (s : Store) (h' : Heap) (s' : Store) : Prop :=
  if s.own.isSome then s'.own.map h'.at_ = s.own.map h.at_ ∧ s'.cxx = s'.own ∧ s'.c99 = s'.own
  else s' = s

theorem StoreAlike.ok {h h' : Heap} {s s' : Store} (ha : StoreAlike h s h' s') : Store.Ok s' := by
  unfold StoreAlike at ha
  split_ifs at ha with h1
  · exact Or.inr ha.2
  · subst ha
    left
    cases hs : s'.own with
    | none => rfl
    | some a => rw [hs] at h1; exact absurd rfl h1

/-- Later buffers do not matter. -/
theorem StoreAlike.later {h h1 h2 : Heap} {l l2 : List Nat} {s s' : Store} (ha : StoreAlike h s h1 s')
    (m : Made h h1 l) (hs : ∀ p ∈ s'.own.toList, p ∈ l) (m2 : Made h1 h2 l2) : StoreAlike h s h2 s' := by
  unfold StoreAlike at ha ⊢
  split_ifs at ha ⊢ with hc
  · refine ⟨?_, ha.2⟩
    rw [← ha.1]
    cases ho : s'.own with
    | none => rfl
    | some a =>
      simp only [Option.map_some, Option.some.injEq]
      exact m2.same a ((m.mem a).1 (hs a (by simp [ho]))).2
  · exact ha

/-- What has been there before is the same buffer. -/
theorem StoreAlike.earlier {h0 h h' : Heap} {l : List Nat} {s s' : Store} (ha : StoreAlike h s h' s')
    (m : Made h0 h l) (h0k : h0.Ok) (hs : ∀ p ∈ s.own.toList, (h0.at_ p).isSome) : StoreAlike h0 s h' s' := by
  unfold StoreAlike at ha ⊢
  split_ifs at ha ⊢ with hc
  · refine ⟨?_, ha.2⟩
    rw [ha.1]
    cases ho : s.own with
    | none => rfl
    | some a =>
      simp only [Option.map_some, Option.some.injEq]
      exact m.same a (Heap.ok_lt h0k (hs a (by simp [ho])))
  · exact ha

theorem copyStore_ok {h : Heap} (hh : h.Ok) {s : Store} (hs : Store.Ok s)
    (ha : ∀ p ∈ s.own.toList, (h.at_ p).isSome) :
    ∃ h' s', copyStore h s = .ok (h', s') ∧ Made h h' s'.own.toList ∧ StoreAlike h s h' s' := by
  unfold copyStore StoreAlike
  rw [hs.owns]
  by_cases hc : s.own.isSome
  · obtain ⟨h', q, e, m, c⟩ := copy_ok hh ha
    refine ⟨h', ⟨q, q, q⟩, by simp [hc, e], m, ?_⟩
    simp [hc, c]
  · have hn : s.own = none := by simpa using hc
    refine ⟨h, ⟨s.cxx, s.c99, none⟩, by simp [hn], Made.refl hh, ?_⟩
    simp only [hn, Option.isSome_none, Bool.false_eq_true, if_false]
    rw [← hn]

theorem ownedBy_cons (s : Store) (ss : List Store) : ownedBy (s :: ss) = s.own.toList ++ ownedBy ss := by
  unfold ownedBy
  rw [List.filterMap_cons]
  cases s.own <;> rfl

theorem copyStores_ok : ∀ {ss : List Store} {h : Heap}, h.Ok → (∀ s ∈ ss, Store.Ok s) →
    (∀ p ∈ ownedBy ss, (h.at_ p).isSome) →
    ∃ h' ss', copyStores h ss = .ok (h', ss') ∧ Made h h' (ownedBy ss') ∧
      List.Forall₂ (fun s s' => StoreAlike h s h' s') ss ss'
  | [], h, hh, _, _ => ⟨h, [], rfl, Made.refl hh, List.Forall₂.nil⟩
  | s :: ss, h, hh, hs, ha => by
    rw [ownedBy_cons] at ha
    obtain ⟨h1, s', e1, m1, a1⟩ := copyStore_ok hh (hs s (by simp))
      (fun p hp => ha p (List.mem_append_left _ hp))
    have hpre : ∀ p ∈ ownedBy ss, (h.at_ p).isSome := fun p hp => ha p (List.mem_append_right _ hp)
    obtain ⟨h2, ss', e2, m2, a2⟩ := copyStores_ok (ss := ss) (h := h1) m1.ok
      (fun s hs' => hs s (List.mem_cons_of_mem _ hs'))
      (fun p hp => by rw [m1.same p (Heap.ok_lt hh (hpre p hp))]; exact hpre p hp)
    refine ⟨h2, s' :: ss', by simp [copyStores, e1, e2], ?_, ?_⟩
    · rw [ownedBy_cons]; exact m1.trans m2
    · refine List.Forall₂.cons (a1.later m1 (fun p hp => hp) m2) ?_
      have hx : ∀ s ∈ ss, ∀ p ∈ s.own.toList, (h.at_ p).isSome := by
        intro s hs' p hp
        refine hpre p ?_
        unfold ownedBy
        rw [List.mem_filterMap]
        exact ⟨s, hs', by simpa using hp⟩
      refine List.Forall₂.imp ?_ ((List.forall₂_and_left (p := fun s : Store =>
        ∀ p ∈ s.own.toList, (h.at_ p).isSome) _ _).2 ⟨hx, a2⟩)
      rintro a b ⟨hx, hy⟩
      exact hy.earlier m1 hh hx

/-- The buffer that `q` holds in `h'` has the contents of the one that `p` holds in `h`. -/
def Copied (h : Heap) (p : Option Nat) (h' : Heap) (q : Option Nat) : Prop := q.map h'.at_ = p.map h.at_

theorem Copied.later {h h1 h2 : Heap} {l l2 : List Nat} {p q : Option Nat} (c : Copied h p h1 q)
    (m : Made h h1 l) (hq : ∀ a ∈ q.toList, a ∈ l) (m2 : Made h1 h2 l2) : Copied h p h2 q := by
  unfold Copied at *
  rw [← c]
  cases q with
  | none => rfl
  | some a =>
    simp only [Option.map_some, Option.some.injEq]
    exact m2.same a ((m.mem a).1 (hq a (by simp))).2

theorem Copied.earlier {h0 h h' : Heap} {l : List Nat} {p q : Option Nat} (c : Copied h p h' q)
    (m : Made h0 h l) (h0k : h0.Ok) (hp : ∀ a ∈ p.toList, (h0.at_ a).isSome) : Copied h0 p h' q := by
  unfold Copied at *
  rw [c]
  cases p with
  | none => rfl
  | some a =>
    simp only [Option.map_some, Option.some.injEq]
    exact m.same a (Heap.ok_lt h0k (hp a (by simp)))

theorem Made.alive_later {h h' : Heap} {l : List Nat} (m : Made h h' l) (hh : h.Ok) {p : Nat}
    (hp : (h.at_ p).isSome) : (h'.at_ p).isSome := by
  rw [m.same p (Heap.ok_lt hh hp)]; exact hp

/-- Copying the buffers of a job: the stored ones, and three more. -/
theorem copyAll_ok {h : Heap} (hh : h.Ok) {ss : List Store} {a b c : Option Nat} (hs : ∀ s ∈ ss, Store.Ok s)
    (hal : ∀ p ∈ a.toList ++ b.toList ++ c.toList ++ ownedBy ss, (h.at_ p).isSome) :
    ∃ h1 h2 h3 h' ss' a' b' c', copyStores h ss = .ok (h1, ss') ∧ h1.copy a = .ok (h2, a') ∧
      h2.copy b = .ok (h3, b') ∧ h3.copy c = .ok (h', c') ∧
      Made h h' (a'.toList ++ b'.toList ++ c'.toList ++ ownedBy ss') ∧
      List.Forall₂ (fun s s' => StoreAlike h s h' s') ss ss' ∧
      Copied h a h' a' ∧ Copied h b h' b' ∧ Copied h c h' c' := by
  have ha : ∀ p ∈ a.toList, (h.at_ p).isSome := fun p hp => hal p (by simp [List.mem_append, hp])
  have hb : ∀ p ∈ b.toList, (h.at_ p).isSome := fun p hp => hal p (by simp only [List.mem_append]; tauto)
  have hc : ∀ p ∈ c.toList, (h.at_ p).isSome := fun p hp => hal p (by simp only [List.mem_append]; tauto)
  obtain ⟨h1, ss', e1, m1, x1⟩ := copyStores_ok hh hs (fun p hp => hal p (List.mem_append_right _ hp))
  obtain ⟨h2, a', e2, m2, x2⟩ := copy_ok m1.ok (fun p hp => m1.alive_later hh (ha p hp))
  have m12 := m1.trans m2
  obtain ⟨h3, b', e3, m3, x3⟩ := copy_ok m2.ok (fun p hp => m12.alive_later hh (hb p hp))
  have m13 := m12.trans m3
  obtain ⟨h4, c', e4, m4, x4⟩ := copy_ok m3.ok (fun p hp => m13.alive_later hh (hc p hp))
  have m14 := m13.trans m4
  refine ⟨h1, h2, h3, h4, ss', a', b', c', e1, e2, e3, e4, ?_, ?_, ?_, ?_, ?_⟩
  · refine m14.perm ?_
    rw [List.append_assoc, List.append_assoc]
    refine List.perm_append_comm.trans ?_
    simp only [List.append_assoc]
    exact List.Perm.refl _
  · have hx : ∀ s' ∈ ss', ∀ p ∈ s'.own.toList, p ∈ ownedBy ss' := by
      intro s hs' p hp
      unfold ownedBy
      rw [List.mem_filterMap]
      exact ⟨s, hs', by simpa using hp⟩
    refine List.Forall₂.flip (List.Forall₂.imp ?_ ((List.forall₂_and_left (p := fun s : Store =>
        ∀ p ∈ s.own.toList, p ∈ ownedBy ss') _ _).2
          ⟨hx, List.Forall₂.flip (R := flip (fun s s' => StoreAlike h s h1 s')) x1⟩))
    rintro s s' ⟨hx, hy⟩
    exact StoreAlike.later hy m1 hx (m2.trans (m3.trans m4))
  · exact (Copied.earlier x2 m1 hh ha).later m12 (fun p hp => List.mem_append_right _ hp) (m3.trans m4)
  · exact (Copied.earlier x3 m12 hh hb).later m13 (fun p hp => List.mem_append_right _ hp) m4
  · exact Copied.earlier x4 m13 hh hc

end SixTrack.JobCopy
