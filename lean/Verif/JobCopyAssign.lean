import Verif.JobCopyLemmas
import Mathlib.Data.List.Count

/-!
# Lemmas about assigning jobs whose target owns buffers
-/

namespace SixTrack.JobCopy
open SixTrack.BStore (Store)

/-- `h'` has the buffers of `h` but for those in `freed`, and the buffers `made`, which did not exist before. -/
structure Changed (h h' : Heap) (made freed : List Nat) : Prop where
  ok : h'.Ok
  le : h.next ≤ h'.next
  same : ∀ p, p < h.next → h'.at_ p = if p ∈ freed then none else h.at_ p
  nodup : made.Nodup
  mem : ∀ p, p ∈ made ↔ h.next ≤ p ∧ p < h'.next
  alive : ∀ p ∈ made, (h'.at_ p).isSome

theorem Made.changed {h h' : Heap} {l : List Nat} (m : Made h h' l) : Changed h h' l [] :=
  ⟨m.ok, m.le, fun p hp => by simpa using m.same p hp, m.nodup, m.mem, m.alive⟩

theorem Changed.refl {h : Heap} (hh : h.Ok) : Changed h h [] [] := (Made.refl hh).changed

theorem Changed.trans {h h1 h2 : Heap} {m1 m2 f1 f2 : List Nat} (c1 : Changed h h1 m1 f1)
    (c2 : Changed h1 h2 m2 f2) (hf : ∀ p ∈ f2, p < h.next) : Changed h h2 (m1 ++ m2) (f1 ++ f2) := by
  have e1 := c1.le
  have e2 := c2.le
  refine ⟨c2.ok, Nat.le_trans e1 e2, fun p hp => ?_, ?_, fun p => ?_, fun p hp => ?_⟩
  · rw [c2.same p (Nat.lt_of_lt_of_le hp e1), c1.same p hp]
    by_cases h1 : p ∈ f1 <;> by_cases h2 : p ∈ f2 <;> simp [h1, h2]
  · refine List.Nodup.append c1.nodup c2.nodup ?_
    intro p hp1 hp2
    have := (c1.mem p).1 hp1
    have := (c2.mem p).1 hp2
    omega
  · rw [List.mem_append, c1.mem, c2.mem]
    omega
  · rcases List.mem_append.1 hp with hp | hp
    · have hx := (c1.mem p).1 hp
      rw [c2.same p hx.2, if_neg]
      · exact c1.alive p hp
      · intro hc
        have := hf p hc
        omega
    · exact c2.alive p hp

theorem Changed.congr {h h' : Heap} {m m' f f' : List Nat} (c : Changed h h' m f) (hm : m.Perm m')
    (hf : ∀ p, p ∈ f' ↔ p ∈ f) : Changed h h' m' f' :=
  ⟨c.ok, c.le, fun p hp => by rw [c.same p hp]; simp only [hf p], hm.nodup_iff.1 c.nodup,
    fun p => by rw [← hm.mem_iff]; exact c.mem p, fun p hp => c.alive p (hm.mem_iff.2 hp)⟩

/-- What is there and is not freed stays. -/
theorem Changed.alive_later {h h' : Heap} {m f : List Nat} (c : Changed h h' m f) (hh : h.Ok) {p : Nat}
    (hp : (h.at_ p).isSome) (hf : p ∉ f) : (h'.at_ p).isSome := by
  rw [c.same p (Heap.ok_lt hh hp), if_neg hf]; exact hp

theorem Changed.free {h h' : Heap} {l : List Nat} (hh : h.Ok) (hn : h'.next = h.next)
    (hs : ∀ p, h'.at_ p = if p ∈ l then none else h.at_ p) : Changed h h' [] l := by
  refine ⟨fun p hp => ?_, by omega, fun p _ => hs p, List.nodup_nil, fun p => ?_, fun p hp => by cases hp⟩
  · rw [hs, hh p (by omega)]; simp
  · rw [hn]
    constructor
    · intro h; cases h
    · intro h; omega

/-- The buffer that `q` holds in `h'` is new and has the contents of the one that `p` holds in `h`. -/
def CopiedNew (h : Heap) (p : Option Nat) (h' : Heap) (q : Option Nat) : Prop :=
  q.map h'.at_ = p.map h.at_ ∧ ∀ a ∈ q.toList, h.next ≤ a ∧ a < h'.next

theorem CopiedNew.later {h h1 h2 : Heap} {m f m2 f2 : List Nat} {p q : Option Nat} (x : CopiedNew h p h1 q)
    (_ : Changed h h1 m f) (c2 : Changed h1 h2 m2 f2) (hf : ∀ a ∈ f2, a < h.next) : CopiedNew h p h2 q := by
  obtain ⟨x1, x2⟩ := x
  refine ⟨?_, fun a ha => ⟨(x2 a ha).1, Nat.lt_of_lt_of_le (x2 a ha).2 c2.le⟩⟩
  rw [← x1]
  cases q with
  | none => rfl
  | some a =>
    have ha := x2 a (by simp)
    simp only [Option.map_some, Option.some.injEq]
    rw [c2.same a ha.2, if_neg]
    intro hc
    have := hf a hc
    omega

theorem CopiedNew.earlier {h0 h h' : Heap} {m f : List Nat} {p q : Option Nat} (x : CopiedNew h p h' q)
    (c : Changed h0 h m f) (h0k : h0.Ok) (hp : ∀ a ∈ p.toList, (h0.at_ a).isSome ∧ a ∉ f) :
    CopiedNew h0 p h' q := by
  obtain ⟨x1, x2⟩ := x
  refine ⟨?_, fun a ha => ⟨Nat.le_trans c.le (x2 a ha).1, (x2 a ha).2⟩⟩
  rw [x1]
  cases p with
  | none => rfl
  | some a =>
    have ha := hp a (by simp)
    simp only [Option.map_some, Option.some.injEq]
    rw [c.same a (Heap.ok_lt h0k ha.1), if_neg ha.2]

theorem copyOnto_ok {h : Heap} (hh : h.Ok) {old src : Option Nat} (ho : ∀ a ∈ old.toList, (h.at_ a).isSome)
    (hs : ∀ a ∈ src.toList, (h.at_ a).isSome) :
    ∃ h' q, h.copyOnto old src = .ok (h', q) ∧ Changed h h' q.toList old.toList ∧ CopiedNew h src h' q := by
  obtain ⟨h1, q, e1, m1, x1⟩ := copy_ok hh hs
  obtain ⟨h2, e2, hn, hx⟩ := freeAll_ok (l := old.toList) (h := h1) (by cases old <;> simp)
    (fun p hp => m1.alive_later hh (ho p hp))
  have c1 := m1.changed
  have c2 := Changed.free m1.ok hn hx
  have hlt : ∀ p ∈ old.toList, p < h.next := fun p hp => Heap.ok_lt hh (ho p hp)
  refine ⟨h2, q, by simp [Heap.copyOnto, e1, e2], ?_, ?_⟩
  · exact (c1.trans c2 hlt).congr (by simp) (by simp)
  · exact CopiedNew.later ⟨x1, fun a ha => (m1.mem a).1 ha⟩ c1 c2 hlt

/-- `s'` has taken what `r` holds: a copy of a buffer which `r` owns, and the pointers of a borrowed one. -/
def Taken (h : Heap) (r : Store) (h' : Heap) (s' : Store) : Prop :=
  if r.own.isSome then CopiedNew h r.own h' s'.own ∧ s'.cxx = s'.own ∧ s'.c99 = s'.own
  else s'.cxx = r.cxx ∧ s'.c99 = r.c99

theorem Taken.later {h h1 h2 : Heap} {m f m2 f2 : List Nat} {r s' : Store} (x : Taken h r h1 s')
    (c : Changed h h1 m f) (c2 : Changed h1 h2 m2 f2) (hf : ∀ a ∈ f2, a < h.next) : Taken h r h2 s' := by
  unfold Taken at x ⊢
  split_ifs at x ⊢ with hc
  · exact ⟨x.1.later c c2 hf, x.2⟩
  · exact x

theorem Taken.earlier {h0 h h' : Heap} {m f : List Nat} {r s' : Store} (x : Taken h r h' s')
    (c : Changed h0 h m f) (h0k : h0.Ok) (hp : ∀ a ∈ r.own.toList, (h0.at_ a).isSome ∧ a ∉ f) :
    Taken h0 r h' s' := by
  unfold Taken at x ⊢
  split_ifs at x ⊢ with hc
  · exact ⟨x.1.earlier c h0k hp, x.2⟩
  · exact x

theorem assignStore_ok {h : Heap} (hh : h.Ok) {s r : Store} (hr : Store.Ok r)
    (hs : ∀ p ∈ s.own.toList, (h.at_ p).isSome) (ha : ∀ p ∈ r.own.toList, (h.at_ p).isSome) :
    ∃ h' s' made kept freed, assignStore h s r = .ok (h', s') ∧ Changed h h' made freed ∧
      s'.own.toList.Perm (made ++ kept) ∧ s.own.toList.Perm (kept ++ freed) ∧ Taken h r h' s' := by
  unfold assignStore Taken
  rw [hr.owns]
  by_cases hc : r.own.isSome
  · obtain ⟨h', q, e, c, x⟩ := copyOnto_ok hh hs ha
    refine ⟨h', ⟨q, q, q⟩, q.toList, [], s.own.toList, by simp [hc, e], c, by simp, by simp, ?_⟩
    simp [hc, x]
  · refine ⟨h, ⟨r.cxx, r.c99, s.own⟩, [], s.own.toList, [], by simp [hc], Changed.refl hh, by simp, by simp, ?_⟩
    simp [hc]

theorem forall₂_own {P : Store → Prop} {R R' : Store → Store → Prop} {rs ss : List Store}
    (hp : ∀ r ∈ rs, P r) (hx : List.Forall₂ R rs ss) (hi : ∀ r s, P r → R r s → R' r s) :
    List.Forall₂ R' rs ss := by
  refine List.Forall₂.imp ?_ ((List.forall₂_and_left (p := P) _ _).2 ⟨hp, hx⟩)
  rintro a b ⟨h1, h2⟩
  exact hi a b h1 h2

theorem mem_ownedBy {s : Store} {ss : List Store} (hs : s ∈ ss) {p : Nat} (hp : p ∈ s.own.toList) :
    p ∈ ownedBy ss := by
  unfold ownedBy
  rw [List.mem_filterMap]
  exact ⟨s, hs, by simpa using hp⟩

theorem copyStores_taken {h : Heap} (hh : h.Ok) {rs : List Store} (hr : ∀ r ∈ rs, Store.Ok r)
    (ha : ∀ p ∈ ownedBy rs, (h.at_ p).isSome) :
    ∃ h' ss', copyStores h rs = .ok (h', ss') ∧ Changed h h' (ownedBy ss') [] ∧
      List.Forall₂ (fun r s' => Taken h r h' s') rs ss' := by
  obtain ⟨h', ss', e, m, x⟩ := copyStores_ok hh hr ha
  refine ⟨h', ss', e, m.changed, ?_⟩
  have hx : ∀ s' ∈ ss', ∀ p ∈ s'.own.toList, p ∈ ownedBy ss' := fun s' hs' p hp => mem_ownedBy hs' hp
  refine List.Forall₂.flip (R := fun r s' => Taken h r h' s') (forall₂_own hx
    (List.Forall₂.flip (R := flip (fun s s' => StoreAlike h s h' s')) x) ?_)
  intro s' r hs' hy
  unfold flip StoreAlike at hy
  unfold flip Taken
  beta_reduce at hy ⊢
  split_ifs at hy ⊢ with hc
  · exact ⟨⟨hy.1, fun a ha => (m.mem a).1 (hs' a ha)⟩, hy.2⟩
  · subst hy; exact ⟨rfl, rfl⟩

/-- Assigning a list of stores: what the target owns afterwards is new or was its own before, and what it does not
own any more has been deleted. -/
theorem assignStores_ok : ∀ {rs ss : List Store} {h : Heap}, h.Ok → (∀ r ∈ rs, Store.Ok r) →
    (ownedBy ss).Nodup → (∀ p ∈ ownedBy ss, (h.at_ p).isSome) → (∀ p ∈ ownedBy rs, (h.at_ p).isSome) →
    (∀ p ∈ ownedBy ss, p ∉ ownedBy rs) →
    ∃ h' ss' made kept freed, assignStores h ss rs = .ok (h', ss') ∧ Changed h h' made freed ∧
      (ownedBy ss').Perm (made ++ kept) ∧ (ownedBy ss).Perm (kept ++ freed) ∧
      List.Forall₂ (fun r s' => Taken h r h' s') rs ss'
  | [], ss, h, hh, _, hn, hs, _, _ => by
    obtain ⟨h', e, hx, hy⟩ := freeAll_ok hn hs
    exact ⟨h', [], [], [], ownedBy ss, by simp [assignStores, e], Changed.free hh hx hy, by simp [ownedBy],
      by simp, List.Forall₂.nil⟩
  | r :: rs, [], h, hh, hr, _, _, ha, _ => by
    obtain ⟨h', ss', e, c, x⟩ := copyStores_taken hh hr ha
    exact ⟨h', ss', ownedBy ss', [], [], by simp [assignStores, e], c, by simp, by simp [ownedBy], x⟩
  | r :: rs, s :: ss, h, hh, hr, hn, hs, ha, hd => by
    have hor := ownedBy_cons r rs
    have hos := ownedBy_cons s ss
    have ha1 : ∀ p ∈ r.own.toList, (h.at_ p).isSome := fun p hp => ha p (by simp [hor, hp])
    have ha2 : ∀ p ∈ ownedBy rs, (h.at_ p).isSome := fun p hp => ha p (by simp [hor, hp])
    have hs1 : ∀ p ∈ s.own.toList, (h.at_ p).isSome := fun p hp => hs p (by simp [hos, hp])
    have hs2 : ∀ p ∈ ownedBy ss, (h.at_ p).isSome := fun p hp => hs p (by simp [hos, hp])
    rw [hos, List.nodup_append'] at hn
    obtain ⟨h1, s', m1, k1, f1, e1, c1, p1, q1, x1⟩ := assignStore_ok hh (hr r (by simp)) hs1 ha1
    have hf1 : ∀ p ∈ f1, p ∈ s.own.toList := fun p hp => q1.mem_iff.2 (List.mem_append_right _ hp)
    have hd1 : ∀ p ∈ f1, p ∉ ownedBy rs := fun p hp hc =>
      hd p (by simp [hos, hf1 p hp]) (by simp [hor, hc])
    have hd2 : ∀ p ∈ f1, p ∉ ownedBy ss := fun p hp hc => hn.2.2 (hf1 p hp) hc
    obtain ⟨h2, ss', m2, k2, f2, e2, c2, p2, q2, x2⟩ := assignStores_ok (rs := rs) (ss := ss) c1.ok
      (fun r hr' => hr r (List.mem_cons_of_mem _ hr')) hn.2.1
      (fun p hp => c1.alive_later hh (hs2 p hp) fun hc => hd2 p hc hp)
      (fun p hp => c1.alive_later hh (ha2 p hp) fun hc => hd1 p hc hp)
      (fun p hp hc => hd p (by simp [hos, hp]) (by simp [hor, hc]))
    have hf2 : ∀ p ∈ f2, p < h.next := fun p hp =>
      Heap.ok_lt hh (hs2 p (q2.mem_iff.2 (List.mem_append_right _ hp)))
    refine ⟨h2, s' :: ss', m1 ++ m2, k1 ++ k2, f1 ++ f2, by simp [assignStores, e1, e2], c1.trans c2 hf2, ?_, ?_,
      List.Forall₂.cons (x1.later c1 c2 hf2) ?_⟩
    · rw [ownedBy_cons]
      refine List.perm_iff_count.2 fun a => ?_
      have u := List.perm_iff_count.1 p1 a
      have v := List.perm_iff_count.1 p2 a
      simp only [List.count_append] at u v ⊢
      omega
    · rw [hos]
      refine List.perm_iff_count.2 fun a => ?_
      have u := List.perm_iff_count.1 q1 a
      have v := List.perm_iff_count.1 q2 a
      simp only [List.count_append] at u v ⊢
      omega
    · refine forall₂_own (P := fun r => ∀ p ∈ r.own.toList, p ∈ ownedBy rs)
        (fun r hr' p hp => mem_ownedBy hr' hp) x2 ?_
      intro r' s'' hp hx
      exact hx.earlier c1 hh fun a ha' => ⟨ha2 a (hp a ha'), fun hc => hd1 a hc (hp a ha')⟩

theorem assignVector_ok {rs ss : List Store} {h : Heap} (cap : Nat) (hh : h.Ok) (hr : ∀ r ∈ rs, Store.Ok r)
    (hn : (ownedBy ss).Nodup) (hs : ∀ p ∈ ownedBy ss, (h.at_ p).isSome) (ha : ∀ p ∈ ownedBy rs, (h.at_ p).isSome)
    (hd : ∀ p ∈ ownedBy ss, p ∉ ownedBy rs) :
    ∃ h' ss' made kept freed, assignVector h cap ss rs = .ok (h', ss') ∧ Changed h h' made freed ∧
      (ownedBy ss').Perm (made ++ kept) ∧ (ownedBy ss).Perm (kept ++ freed) ∧
      List.Forall₂ (fun r s' => Taken h r h' s') rs ss' := by
  unfold assignVector
  split_ifs with hc
  · obtain ⟨h1, ss', e, c, x⟩ := copyStores_taken hh hr ha
    obtain ⟨h2, e2, hx, hy⟩ := freeAll_ok (h := h1) hn
      (fun p hp => c.alive_later hh (hs p hp) (by simp))
    have c2 := Changed.free c.ok hx hy
    have hlt : ∀ p ∈ ownedBy ss, p < h.next := fun p hp => Heap.ok_lt hh (hs p hp)
    refine ⟨h2, ss', ownedBy ss', [], ownedBy ss, by simp [e, e2],
      (c.trans c2 hlt).congr (by simp) (by simp), by simp, by simp, ?_⟩
    refine forall₂_own (P := fun _ => True) (fun _ _ => trivial) x ?_
    intro r s' _ hx
    exact hx.later c c2 hlt
  · exact assignStores_ok hh hr hn hs ha hd

end SixTrack.JobCopy
