import Verif.JobCopyAssign
import Mathlib.Tactic.ByContra

/-!
# C88: copying, moving and destroying jobs

A copy of a job looks like the job, has its own copies of the buffers which the job owns, and both can be destroyed
independently.
-/

namespace SixTrack
open JobCopy
open SixTrack.BStore (Store)

namespace JobCopy

/-- A job as it may be: what it owns exists and is owned once, a store which owns a buffer points to it, and so do
the pointers to the output buffer. -/
structure Job.Ok (h : Heap) (j : Job) : Prop where
  nodup : j.owned.Nodup
  alive : ∀ p ∈ j.owned, (h.at_ p).isSome
  stores : ∀ s ∈ j.stored, Store.Ok s
  out : j.myOut.isSome → j.pOut = j.myOut
  outC : j.pOut.isSome → j.cOut = j.pOut

/-- Everything but the buffers which a job may own, and the output buffer. -/
def Job.plain (j : Job) : Job :=
  { j with stored := [], myOut := none, myEbe := none, myAddr := none, pOut := none, cOut := none }

/-- `j` in `h'` looks like `o` in `h`. -/
structure Alike (h : Heap) (o : Job) (h' : Heap) (j : Job) : Prop where
  plain : j.plain = o.plain
  stored : List.Forall₂ (fun s s' => StoreAlike h s h' s') o.stored j.stored
  ebe : j.myEbe.map h'.at_ = o.myEbe.map h.at_
  addr : j.myAddr.map h'.at_ = o.myAddr.map h.at_
  out : j.myOut.map h'.at_ = o.myOut.map h.at_
  borrowed : o.myOut = none → j.pOut = o.pOut ∧ j.cOut = o.cOut

/-- The buffers which a job uses but does not own. -/
def Job.borrowed (j : Job) : List Nat :=
  j.pPart.toList ++ j.cPart.toList ++ j.pElem.toList ++ j.cElem.toList ++
    (if j.myOut.isSome then [] else j.pOut.toList ++ j.cOut.toList) ++
    j.stored.flatMap fun s => if s.own.isSome then [] else s.cxx.toList ++ s.c99.toList

/-- For the examples: buffers 0 and 1 are the user's particles and elements, the job owns an output buffer (2),
which has two objects, and the buffers 3 and 4; it stores buffer 5, which it owns, and buffer 0, which it does not. -/
def demoHeap : Heap :=
  ⟨6, fun p => if p < 6 then some ⟨256 + p, 256 + p, if p = 2 then [7, 8] else [p]⟩ else none⟩

def demoJob : Job :=
  { (Job.new ⟨3, fun _ => none⟩ 1 "cpu" "").2 with
    items := [4], keys := [1], setIdx := [0, 2], setBegin := [0, 5], setEnd := [5, 9], monIdx := [3]
    stored := [⟨some 5, some 5, some 5⟩, ⟨none, some 0, none⟩], numStored := 2
    myOut := some 2, pOut := some 2, cOut := some 2, pPart := some 0, cPart := some 0, pElem := some 1
    cElem := some 1, hasMon := true, hasEbe := true, ebeOff := 1, untilTurn := 5, numElems := 8 }

theorem demo_ok : demoJob.Ok demoHeap := by
  constructor
  · decide
  · intro p hp
    have : p = 2 ∨ p = 3 ∨ p = 4 ∨ p = 5 := by
      have h : demoJob.owned = [2, 3, 4, 5] := by decide
      rw [h] at hp
      simpa using hp
    rcases this with rfl | rfl | rfl | rfl <;> rfl
  · intro s hs
    have : s = ⟨some 5, some 5, some 5⟩ ∨ s = ⟨none, some 0, none⟩ := by simpa [demoJob] using hs
    rcases this with rfl | rfl
    · exact Or.inr ⟨rfl, rfl⟩
    · exact Or.inl rfl
  · intro; rfl
  · intro; rfl

theorem demoHeap_ok : demoHeap.Ok := by
  intro p hp
  have : ¬ p < 6 := by simpa [demoHeap] using hp
  simp [demoHeap, this]

/-- What the copy constructor does with the output buffer is to copy what the job owns. -/
theorem copyOut_eq {h : Heap} {o : Job} (ho : o.Ok h) {h' : Heap} {q : Option Nat}
    (e : h.copy o.myOut = .ok (h', q)) :
    copyOut h o = .ok (h', q, if o.myOut.isSome then q else o.pOut, if o.myOut.isSome then q else o.cOut) := by
  unfold copyOut Job.ownsOut Job.hasOut
  cases hm : o.myOut with
  | some m =>
    have hp := ho.out (by simp [hm])
    rw [hp, hm]
    rw [hm] at e
    simp [e]
  | none =>
    rw [hm] at e
    simp only [Heap.copy, Res.ok_inj, Prod.mk.injEq] at e
    obtain ⟨rfl, rfl⟩ := e
    cases hc : o.cOut with
    | some c => simp
    | none =>
      have : o.pOut = none := by
        cases hp : o.pOut with
        | none => rfl
        | some p =>
          have := ho.outC (by simp [hp])
          rw [hc, hp] at this
          cases this
      simp [this]

end JobCopy

/-- Copying a job gives one that looks like it and owns exactly the new buffers; all that has been there before is
unchanged. -/
theorem C88_copy {h : Heap} (hh : h.Ok) {o : Job} (ho : o.Ok h) :
    ∃ h' j, o.copyNew h = .ok (h', j) ∧ Alike h o h' j ∧ j.Ok h' ∧ h'.Ok ∧
      (∀ p, p < h.next → h'.at_ p = h.at_ p) ∧ ∀ p, p ∈ j.owned ↔ h.next ≤ p ∧ p < h'.next := by
  obtain ⟨h1, h2, h3, h', ss', a', b', c', e1, e2, e3, e4, m, xs, xa, xb, xc⟩ :=
    copyAll_ok (a := o.myOut) (b := o.myEbe) (c := o.myAddr) hh ho.stores ho.alive
  have ho1 : o.Ok h1 := by
    obtain ⟨_, _, e, m1, _⟩ := copyStores_ok hh ho.stores
      (fun p hp => ho.alive p (List.mem_append_right _ hp))
    rw [e1] at e
    simp only [Res.ok_inj, Prod.mk.injEq] at e
    obtain ⟨rfl, rfl⟩ := e
    exact ⟨ho.nodup, fun p hp => m1.alive_later hh (ho.alive p hp), ho.stores, ho.out, ho.outC⟩
  have hsome : a'.isSome = o.myOut.isSome := by
    have := congrArg Option.isSome xa
    simpa using this
  refine ⟨h', { o with
    stored := ss', myOut := a', myEbe := b', myAddr := c'
    pOut := if o.myOut.isSome then a' else o.pOut
    cOut := if o.myOut.isSome then a' else o.cOut }, ?_, ⟨?_, ?_, ?_, ?_, ?_, ?_⟩, ⟨?_, ?_, ?_, ?_, ?_⟩, m.ok, m.same, ?_⟩
  · simp only [Job.copyNew, e1, Res.ok_bind, copyOut_eq ho1 e2, e3, e4, Res.pure_eq]
  · rfl
  · exact xs
  · exact xb
  · exact xc
  · exact xa
  · intro hn
    simp [hn]
  · exact m.nodup
  · exact m.alive
  · intro s hs
    have : ∀ {l l' : List Store}, List.Forall₂ (fun s s' => StoreAlike h s h' s') l l' →
        ∀ s ∈ l', Store.Ok s := by
      intro l l' hf
      induction hf with
      | nil => intro s hs; cases hs
      | cons hab _ ih =>
        intro s hs
        rcases List.mem_cons.1 hs with rfl | hs
        · exact hab.ok
        · exact ih s hs
    exact this xs s hs
  · intro hs
    simp only at hs ⊢
    rw [hsome] at hs
    rw [if_pos hs]
  · intro hs
    simp only at hs ⊢
    split_ifs at hs ⊢ with hc
    · rfl
    · exact ho.outC hs
  · exact m.mem

/-- A copied job is a good job to copy (the hypotheses can be met): five buffers owned, and the copies have the
numbers from 6 on. -/
example : demoJob.Ok demoHeap ∧ demoHeap.Ok := ⟨demo_ok, demoHeap_ok⟩

/-- Destroying a copy takes away the buffers that have been made for it, and nothing else. -/
theorem C88_copy_destroy {h h' : Heap} (hh : h.Ok) {o j : Job} (ho : o.Ok h) (e : o.copyNew h = .ok (h', j)) :
    ∃ h'', j.destroy h' = .ok h'' ∧ h''.at_ = h.at_ := by
  obtain ⟨_, _, e', _, hj, hk, hs, hm⟩ := C88_copy hh ho
  rw [e] at e'
  simp only [Res.ok_inj, Prod.mk.injEq] at e'
  obtain ⟨rfl, rfl⟩ := e'
  obtain ⟨h'', e'', _, ha⟩ := freeAll_ok hj.nodup hj.alive
  refine ⟨h'', e'', funext fun p => ?_⟩
  rw [ha p]
  split_ifs with hc
  · exact (hh p ((hm p).1 hc).1).symm
  · by_cases hp : p < h.next
    · exact hs p hp
    · rw [hh p (by omega)]
      refine hk p ?_
      by_contra hlt
      exact hc ((hm p).2 ⟨by omega, by omega⟩)

/-- Destroying the original leaves the copy with all that it owns; and what it borrows, unless the original owned
it. -/
theorem C88_copy_survives {h h' : Heap} (hh : h.Ok) {o j : Job} (ho : o.Ok h) (e : o.copyNew h = .ok (h', j)) :
    ∃ h'', o.destroy h' = .ok h'' ∧ j.Ok h'' ∧ (∀ p ∈ j.owned, h''.at_ p = h'.at_ p) ∧
      ∀ p ∈ j.borrowed, p ∉ o.owned → h''.at_ p = h'.at_ p := by
  obtain ⟨_, _, e', _, hj, hk, hs, hm⟩ := C88_copy hh ho
  rw [e] at e'
  simp only [Res.ok_inj, Prod.mk.injEq] at e'
  obtain ⟨rfl, rfl⟩ := e'
  have hlt : ∀ p ∈ o.owned, p < h.next := fun p hp => Heap.ok_lt hh (ho.alive p hp)
  obtain ⟨h'', e'', _, ha⟩ := freeAll_ok (h := h') ho.nodup
    (fun p hp => by rw [hs p (hlt p hp)]; exact ho.alive p hp)
  have hkeep : ∀ p ∈ j.owned, h''.at_ p = h'.at_ p := by
    intro p hp
    rw [ha p, if_neg]
    intro hc
    have := hlt p hc
    have := ((hm p).1 hp).1
    omega
  refine ⟨h'', e'', ⟨hj.nodup, fun p hp => ?_, hj.stores, hj.out, hj.outC⟩, hkeep, fun p _ hn => ?_⟩
  · rw [hkeep p hp]; exact hj.alive p hp
  · rw [ha p, if_neg hn]

/-- A job which uses its own stored buffer for the particles is copied wrongly: the copy uses the buffer of the
original, which is gone when the original is destroyed. -/
theorem C88_copy_borrow_violated {h h' : Heap} (hh : h.Ok) {o j : Job} (ho : o.Ok h)
    (e : o.copyNew h = .ok (h', j)) {p : Nat} (hp : o.pPart = some p) (hown : p ∈ o.owned) :
    (h'.at_ p).isSome ∧ j.pPart = some p ∧ ∃ h'', o.destroy h' = .ok h'' ∧ h''.at_ p = none := by
  obtain ⟨_, _, e', ha, _, _, hs, _⟩ := C88_copy hh ho
  rw [e] at e'
  simp only [Res.ok_inj, Prod.mk.injEq] at e'
  obtain ⟨rfl, rfl⟩ := e'
  have hlt : ∀ p ∈ o.owned, p < h.next := fun p hp => Heap.ok_lt hh (ho.alive p hp)
  have hal : ∀ p ∈ o.owned, (h'.at_ p).isSome := fun p hp => by
    rw [hs p (hlt p hp)]; exact ho.alive p hp
  obtain ⟨h'', e'', _, hx⟩ := freeAll_ok (h := h') ho.nodup hal
  refine ⟨hal p hown, ?_, h'', e'', by rw [hx p, if_pos hown]⟩
  have := congrArg Job.pPart ha.plain
  simpa [Job.plain, hp] using this

example : ({ demoJob with pPart := some 5 } : Job).Ok demoHeap ∧
    5 ∈ ({ demoJob with pPart := some 5 } : Job).owned := by
  refine ⟨⟨demo_ok.nodup, demo_ok.alive, demo_ok.stores, demo_ok.out, demo_ok.outC⟩, by decide⟩

/-- Moving a job is never defined: the job moved from has no element-by-element buffer any more when it is
cleared. -/
theorem C88_move_violated (h : Heap) (o : Job) : o.moveNew h = .ub := by
  simp [Job.moveNew, Job.clearMoved, Job.clearParticles, Job.movedFrom, Heap.resetAt, Job.clearElements,
    Job.clearOutput]

/-- Nor is the assignment of a moved job. -/
theorem C88_move_assign_violated (h : Heap) (t r : Job) : t.moveAssign h r = .ub := by
  unfold Job.moveAssign
  cases h.freeAll t.owned with
  | ub => rfl
  | ok h1 =>
    simp [Job.clearMoved, Job.clearParticles, Job.movedFrom, Heap.resetAt, Job.clearElements, Job.clearOutput]

/-- Assigning a job for another architecture does nothing. -/
theorem C88_assign_other (h : Heap) {t r : Job} (ha : t.archId ≠ r.archId) : t.copyAssign h r = .ok (h, t) := by
  simp [Job.copyAssign, ha]

example : (Job.new demoHeap 2 "cuda" "").2.archId ≠ demoJob.archId := by decide

namespace JobCopy

/-- What the copy assignment does with the buffer of addresses. -/
theorem assignAddr_ok {h : Heap} (hh : h.Ok) {t r : Job} (ht : ∀ p ∈ t.myAddr.toList, (h.at_ p).isSome)
    (hr : ∀ p ∈ r.myAddr.toList, (h.at_ p).isSome) :
    ∃ h' , assignAddr h t r = .ok (h', { t with myAddr := some h.next }) ∧ h'.Ok ∧
      h'.at_ h.next = some (match r.myAddr.bind h.at_ with | some b => b | none => Buf.new) ∧
      ∀ p, p ≠ h.next → h'.at_ p = if t.myAddr = some p then none else h.at_ p := by
  have key : ∀ b : Buf, ∃ h', (h.new b).freeAll t.myAddr.toList = .ok h' ∧ h'.Ok ∧
      h'.at_ h.next = some b ∧ ∀ p, p ≠ h.next → h'.at_ p = if t.myAddr = some p then none else h.at_ p := by
    intro b
    have hlt : ∀ p ∈ t.myAddr.toList, p < h.next := fun p hp => Heap.ok_lt hh (ht p hp)
    obtain ⟨h', e, hn, hx⟩ := freeAll_ok (l := t.myAddr.toList) (h := h.new b)
      (by cases t.myAddr <;> simp) (fun p hp => (Made.new hh b).alive_later hh (ht p hp))
    have hmem : ∀ p, p ∈ t.myAddr.toList ↔ t.myAddr = some p := fun p => by simp
    refine ⟨h', e, fun p hp => ?_, ?_, fun p hp => ?_⟩
    · rw [hx p]
      split_ifs
      · rfl
      · exact (Made.new hh b).ok p (by rw [hn] at hp; exact hp)
    · rw [hx, if_neg]
      · simp [Heap.new]
      · intro hc
        have := hlt _ hc
        omega
    · rw [hx p]
      simp only [hmem]
      split_ifs
      · rfl
      · simp [Heap.new, hp]
  unfold assignAddr
  cases hra : r.myAddr with
  | none =>
    obtain ⟨h', e, hk, hv⟩ := key Buf.new
    refine ⟨h', ?_, hk, hv.1, hv.2⟩
    simp [e]
  | some a =>
    obtain ⟨b, hb⟩ := Option.isSome_iff_exists.1 (hr a (by simp [hra]))
    obtain ⟨h', e, hk, hv⟩ := key b
    refine ⟨h', ?_, hk, ?_, hv.2⟩
    · simp [Heap.copy, Heap.get_some hb, e]
    · rw [hv.1]
      simp [hb]

theorem Job.Ok.owns {h : Heap} {j : Job} (hj : j.Ok h) : j.ownsOut = j.myOut.isSome := by
  unfold Job.ownsOut
  cases hm : j.myOut with
  | none => simp
  | some m => rw [hj.out (by simp [hm]), hm]; rfl

/-- What the copy assignment does with the output buffer, case by case. -/
structure OutAssigned (h : Heap) (t r : Job) (h1 : Heap) (t1 : Job) : Prop where
  both : ∀ m c bt br, t.myOut = some m → r.myOut = some c → h.at_ m = some bt → h.at_ c = some br →
    t1.myOut = some m ∧ t1.pOut = some m ∧ t1.cOut = some m ∧ h1.at_ m = some (bt.deepCopyFrom br)
  shared : t.myOut = none → r.myOut.isSome → t1.myOut = none ∧ t1.pOut = r.pOut ∧ t1.cOut = r.cOut
  borrowed : r.myOut = none → r.cOut.isSome → t1.myOut = none ∧ t1.pOut = r.pOut ∧ t1.cOut = r.cOut ∧
    ∀ m, t.myOut = some m → h1.at_ m = none
  kept : r.cOut = none → t1.myOut = t.myOut ∧ t1.pOut = t.pOut ∧ t1.cOut = t.cOut ∧
    ∀ m, t.myOut = some m → h1.at_ m = h.at_ m

theorem assignOut_ok {h : Heap} (hh : h.Ok) {t r : Job} (ht : t.Ok h) (hr : r.Ok h) :
    ∃ h1 t1, assignOut h t r = .ok (h1, t1) ∧ h1.Ok ∧ h1.next = h.next ∧
      t1 = { t with myOut := t1.myOut, pOut := t1.pOut, cOut := t1.cOut } ∧
      (∀ p, t.myOut ≠ some p → h1.at_ p = h.at_ p) ∧ OutAssigned h t r h1 t1 := by
  have hcr : r.myOut.isSome → r.cOut = r.myOut := fun hs => by
    rw [hr.outC (by rw [hr.out hs]; exact hs), hr.out hs]
  unfold assignOut
  rw [ht.owns, hr.owns]
  cases hrm : r.myOut with
  | some c =>
    have hrc : r.cOut = some c := by rw [hcr (by simp [hrm]), hrm]
    obtain ⟨br, hbr⟩ := Option.isSome_iff_exists.1 (hr.alive c (by simp [Job.owned, hrm]))
    cases htm : t.myOut with
    | some m =>
      obtain ⟨bt, hbt⟩ := Option.isSome_iff_exists.1 (ht.alive m (by simp [Job.owned, htm]))
      refine ⟨{ h with at_ := fun q => if q = m then some (bt.deepCopyFrom br) else h.at_ q },
        { t with pOut := some m, cOut := some m }, ?_, ?_, rfl, ?_, ?_, ?_⟩
      · simp [hrc, Heap.get_some hbr, Heap.get_some hbt, Heap.set, hbt, htm]
      · intro p hp
        have : p ≠ m := by
          have := Heap.ok_lt hh (p := m) (by simp [hbt])
          simp only at hp
          omega
        simp only [if_neg this]
        exact hh p hp
      · simp [htm]
      · intro p hp
        have : p ≠ m := fun e => hp (by rw [e])
        simp [this]
      · constructor
        · intro m' c' bt' br' e1 e2 e3 e4
          rw [htm] at e1; rw [hrm] at e2
          cases e1; cases e2
          rw [hbt] at e3; rw [hbr] at e4
          cases e3; cases e4
          exact ⟨by simp [htm], rfl, rfl, by simp⟩
        · intro e; rw [htm] at e; cases e
        · intro e; rw [hrm] at e; cases e
        · intro e; rw [hrc] at e; cases e
    | none =>
      refine ⟨h, { t with pOut := r.pOut, cOut := r.cOut }, by simp [htm], hh, rfl, rfl,
        fun p _ => rfl, ?_⟩
      constructor
      · intro m' c' bt' br' e1; rw [htm] at e1; cases e1
      · intro _ _; exact ⟨htm, rfl, rfl⟩
      · intro e; rw [hrm] at e; cases e
      · intro e; rw [hrc] at e; cases e
  | none =>
    cases hrc : r.cOut with
    | none =>
      refine ⟨h, t, by simp [Job.hasOut, hrc], hh, rfl, rfl, fun p _ => rfl, ?_⟩
      constructor
      · intro m' c' bt' br' _ e1; rw [hrm] at e1; cases e1
      · intro _ e; rw [hrm] at e; cases e
      · intro _ e; rw [hrc] at e; cases e
      · intro _; exact ⟨rfl, rfl, rfl, fun _ _ => rfl⟩
    | some c =>
      cases htm : t.myOut with
      | none =>
        refine ⟨h, { t with pOut := r.pOut, cOut := r.cOut }, by simp [Job.hasOut, hrc, htm], hh, rfl,
          rfl, fun p _ => rfl, ?_⟩
        constructor
        · intro m' c' bt' br' e1; rw [htm] at e1; cases e1
        · intro _ e; rw [hrm] at e; cases e
        · intro _ _
          refine ⟨htm, rfl, rfl, fun m e => ?_⟩
          rw [htm] at e; cases e
        · intro e; rw [hrc] at e; cases e
      | some m =>
        obtain ⟨bt, hbt⟩ := Option.isSome_iff_exists.1 (ht.alive m (by simp [Job.owned, htm]))
        obtain ⟨h1, e1, hn, hx⟩ := freeAll_ok (l := [m]) (h := h) (by simp) (by simp [hbt])
        refine ⟨h1, { t with myOut := none, pOut := r.pOut, cOut := r.cOut }, ?_, ?_, hn, rfl, ?_, ?_⟩
        · simp [Job.hasOut, hrc, e1]
        · intro p hp
          rw [hx p]
          split_ifs
          · rfl
          · exact hh p (by rw [hn] at hp; exact hp)
        · intro p hp
          have : p ≠ m := fun e => hp (by rw [e])
          rw [hx p, if_neg (by simpa using this)]
        · constructor
          · intro m' c' bt' br' _ e1; rw [hrm] at e1; cases e1
          · intro e; rw [htm] at e; cases e
          · intro _ _
            refine ⟨rfl, rfl, rfl, fun m' e => ?_⟩
            rw [htm] at e
            cases e
            rw [hx, if_pos (by simp)]
          · intro e; rw [hrc] at e; cases e

end JobCopy

/-- Copy assignment between jobs of the same architecture, for two jobs which own different buffers: all members
but the address assignments, the stored buffers and the element-by-element buffer are those of the other job; the
buffer of addresses is a new one with the same contents; what becomes of the output buffer is said in
`OutAssigned`; no buffer of the other job is touched. -/
theorem C88_assign_partial {h : Heap} (hh : h.Ok) {t r : Job} (ht : t.Ok h) (hr : r.Ok h)
    (ha : t.archId = r.archId) (hd : ∀ p ∈ t.owned, p ∉ r.owned) :
    ∃ h' t', t.copyAssign h r = .ok (h', t') ∧ h'.Ok ∧
      ({ t' with items := r.items, keys := r.keys } : Job).plain = r.plain ∧
      t'.items = t.items ∧ t'.keys = t.keys ∧ t'.stored = t.stored ∧ t'.myEbe = t.myEbe ∧
      t'.myAddr = some h.next ∧
      h'.at_ h.next = some (match r.myAddr.bind h.at_ with | some b => b | none => Buf.new) ∧
      OutAssigned h t r h' t' ∧
      (∀ p, p < h.next → t.myOut ≠ some p → t.myAddr ≠ some p → h'.at_ p = h.at_ p) ∧
      (∀ p, t.myAddr = some p → h'.at_ p = none) ∧ r.Ok h' := by
  obtain ⟨h1, t1, e1, hk1, hn1, ht1, hs1, ho1⟩ := assignOut_ok hh ht hr
  have hout : ∀ a, t.myOut = some a → a ∈ t.owned := fun a e => by simp [Job.owned, e]
  have haddr : ∀ a, t.myAddr = some a → a ∈ t.owned := fun a e => by simp [Job.owned, e]
  have hne : ∀ a b, t.myOut = some a → t.myAddr = some b → a ≠ b := by
    intro a b e1 e2 e
    have := ht.nodup
    subst e
    rw [Job.owned, e1, e2] at this
    have h2 := (List.nodup_append.1 this).1
    rw [List.append_assoc, List.nodup_append] at h2
    exact h2.2.2 a (by simp) a (by simp) rfl
  have hm1 : t1.myAddr = t.myAddr := by rw [ht1]
  obtain ⟨h2, e2, hk2, hv2, hs2⟩ := assignAddr_ok (t := t1) (r := r) hk1
    (fun p hp => by
      rw [hm1] at hp
      have hp' : t.myAddr = some p := by simpa using hp
      rw [hs1 p (fun e => hne p p e hp' rfl)]
      exact ht.alive p (haddr p hp'))
    (fun p hp => by
      have hp' : r.myAddr = some p := by simpa using hp
      have hpr : p ∈ r.owned := by simp [Job.owned, hp']
      rw [hs1 p (fun e => hd p (hout p e) hpr)]
      exact hr.alive p hpr)
  have hv : ∀ p, p < h.next → t.myAddr ≠ some p → h2.at_ p = h1.at_ p := by
    intro p hp hq
    rw [hs2 p (by rw [hn1]; omega), hm1, if_neg hq]
  have hsame : ∀ p, p < h.next → t.myOut ≠ some p → t.myAddr ≠ some p → h2.at_ p = h.at_ p :=
    fun p hp h3 h4 => by rw [hv p hp h4, hs1 p h3]
  have hlt : ∀ p, t.myOut = some p → p < h.next := fun p e => Heap.ok_lt hh (ht.alive p (hout p e))
  have hvo : ∀ p, t.myOut = some p → h2.at_ p = h1.at_ p := fun p e =>
    hv p (hlt p e) (fun e' => hne p p e e' rfl)
  refine ⟨h2, assignPlain { t1 with myAddr := some h1.next } r, ?_, hk2, ?_, ?_, ?_, ?_, ?_, ?_, ?_, ?_, hsame,
    ?_, ?_⟩
  · simp [Job.copyAssign, ha, e1, e2]
  · rw [ht1]; rfl
  · rw [ht1]; rfl
  · rw [ht1]; rfl
  · rw [ht1]; rfl
  · rw [ht1]; rfl
  · rw [← hn1]; rfl
  · rw [← hn1, hv2]
    cases hra : r.myAddr with
    | none => rfl
    | some a =>
      simp only [Option.bind_some]
      have hpr : a ∈ r.owned := by simp [Job.owned, hra]
      rw [hs1 a (fun e => hd a (hout a e) hpr)]
  · constructor
    · intro m c bt br x1 x2 x3 x4
      obtain ⟨y1, y2, y3, y4⟩ := ho1.both m c bt br x1 x2 x3 x4
      exact ⟨y1, y2, y3, by rw [hvo m x1, y4]⟩
    · exact ho1.shared
    · intro x1 x2
      obtain ⟨y1, y2, y3, y4⟩ := ho1.borrowed x1 x2
      exact ⟨y1, y2, y3, fun m e => by rw [hvo m e, y4 m e]⟩
    · intro x1
      obtain ⟨y1, y2, y3, y4⟩ := ho1.kept x1
      exact ⟨y1, y2, y3, fun m e => by rw [hvo m e, y4 m e]⟩
  · intro p e
    have := Heap.ok_lt hh (ht.alive p (haddr p e))
    rw [hs2 p (by rw [hn1]; omega), hm1, if_pos e]
  · refine ⟨hr.nodup, fun p hp => ?_, hr.stores, hr.out, hr.outC⟩
    rw [hsame p (Heap.ok_lt hh (hr.alive p hp)) (fun e => hd p (hout p e) hp) (fun e => hd p (haddr p e) hp)]
    exact hr.alive p hp

namespace JobCopy

/-- For the examples: the program with a second, new job, which owns the buffers 6 and 7. -/
def twoHeap : Heap := (Job.new demoHeap 1 "cpu" "").1
def newOne : Job := (Job.new demoHeap 1 "cpu" "").2

theorem twoHeap_ok : twoHeap.Ok := (Made.new (Made.new demoHeap_ok Buf.new).ok Buf.new).ok

theorem newOne_ok : newOne.Ok twoHeap := by
  constructor
  · decide
  · intro p hp
    have h : newOne.owned = [6, 7] := by decide
    rw [h] at hp
    have : p = 6 ∨ p = 7 := by simpa using hp
    rcases this with rfl | rfl <;> rfl
  · intro s hs; cases hs
  · intro h; cases h
  · intro h; cases h

theorem demo_ok_two : demoJob.Ok twoHeap :=
  ⟨demo_ok.nodup, fun p hp => (Made.new (Made.new demoHeap_ok Buf.new).ok Buf.new).alive_later
      (Made.new demoHeap_ok Buf.new).ok ((Made.new demoHeap_ok Buf.new).alive_later demoHeap_ok
        (demo_ok.alive p hp)), demo_ok.stores, demo_ok.out, demo_ok.outC⟩

end JobCopy

example : newOne.Ok twoHeap ∧ demoJob.Ok twoHeap ∧ newOne.archId = demoJob.archId ∧
    (∀ p ∈ newOne.owned, p ∉ demoJob.owned) ∧ newOne.myOut = none ∧ demoJob.myOut = some 2 :=
  ⟨newOne_ok, demo_ok_two, rfl, by decide, rfl, rfl⟩

/-- A job which owns no output buffer and is assigned one which does uses the buffer of the other job: it is gone
when that job is destroyed. -/
theorem C88_assign_dangles_violated {h : Heap} (hh : h.Ok) {t r : Job} (ht : t.Ok h) (hr : r.Ok h)
    (ha : t.archId = r.archId) (hd : ∀ p ∈ t.owned, p ∉ r.owned) (hto : t.myOut = none) {c : Nat}
    (hro : r.myOut = some c) :
    ∃ h' t', t.copyAssign h r = .ok (h', t') ∧ t'.pOut = some c ∧ t'.cOut = some c ∧ t'.ownsOut = false ∧
      ∃ h'', r.destroy h' = .ok h'' ∧ h''.at_ c = none := by
  obtain ⟨h', t', e, _, _, _, _, _, _, _, _, ho, _, _, hr'⟩ := C88_assign_partial hh ht hr ha hd
  obtain ⟨x1, x2, x3⟩ := ho.shared hto (by simp [hro])
  have hp : r.pOut = some c := by rw [hr.out (by simp [hro]), hro]
  have hc : r.cOut = some c := by rw [hr.outC (by simp [hp]), hp]
  obtain ⟨h'', e'', _, hx⟩ := freeAll_ok hr'.nodup hr'.alive
  refine ⟨h', t', e, by rw [x2, hp], by rw [x3, hc], by simp [Job.ownsOut, x1], h'', e'', ?_⟩
  rw [hx, if_pos (by simp [Job.owned, hro])]

/-- If both jobs own an output buffer, the objects are copied, provided that the other buffer is not larger, or not
larger than it has to be. -/
theorem C88_assign_output {h : Heap} (hh : h.Ok) {t r : Job} (ht : t.Ok h) (hr : r.Ok h)
    (ha : t.archId = r.archId) (hd : ∀ p ∈ t.owned, p ∉ r.owned) {m c : Nat} {bt br : Buf}
    (hto : t.myOut = some m) (hro : r.myOut = some c) (hbt : h.at_ m = some bt) (hbr : h.at_ c = some br)
    (h0 : 0 < br.cap) (hfit : br.cap ≤ bt.cap ∨ br.cap ≤ br.need) :
    ∃ h' t', t.copyAssign h r = .ok (h', t') ∧ t'.ownsOut = true ∧ t'.myOut = some m ∧ t'.pOut = some m ∧
      t'.cOut = some m ∧ (h'.at_ m).map (·.objs) = some br.objs := by
  obtain ⟨h', t', e, _, _, _, _, _, _, _, _, ho, _, _, _⟩ := C88_assign_partial hh ht hr ha hd
  obtain ⟨x1, x2, x3, x4⟩ := ho.both m c bt br hto hro hbt hbr
  refine ⟨h', t', e, by simp [Job.ownsOut, x1, x2], x1, x2, x3, ?_⟩
  rw [x4]
  unfold Buf.deepCopyFrom
  rw [if_pos h0]
  dsimp only
  rw [if_pos]
  · rfl
  · split_ifs with hc
    · omega
    · omega

example : (0 : Nat) < 258 ∧ demoHeap.at_ 2 = some ⟨258, 258, [7, 8]⟩ ∧
    (258 ≤ (⟨128, 128, []⟩ : Buf).cap ∨ (258 : Nat) ≤ 258) := ⟨by decide, rfl, Or.inr (by decide)⟩

/-- Otherwise the objects are lost: both jobs own an output buffer, that of the other job has room for more than its
maxima, and the target has no output afterwards. -/
theorem C88_assign_lost_violated {h : Heap} (hh : h.Ok) {t r : Job} (ht : t.Ok h) (hr : r.Ok h)
    (ha : t.archId = r.archId) (hd : ∀ p ∈ t.owned, p ∉ r.owned) {m c : Nat} {bt br : Buf}
    (hto : t.myOut = some m) (hro : r.myOut = some c) (hbt : h.at_ m = some bt) (hbr : h.at_ c = some br)
    (h1 : bt.cap < br.cap) (h2 : br.need < br.cap) :
    ∃ h' t', t.copyAssign h r = .ok (h', t') ∧ t'.myOut = some m ∧ (h'.at_ m).map (·.objs) = some [] := by
  obtain ⟨h', t', e, _, _, _, _, _, _, _, _, ho, _, _, _⟩ := C88_assign_partial hh ht hr ha hd
  obtain ⟨x1, x2, x3, x4⟩ := ho.both m c bt br hto hro hbt hbr
  refine ⟨h', t', e, x1, ?_⟩
  rw [x4]
  unfold Buf.deepCopyFrom
  rw [if_pos (by omega)]
  dsimp only
  rw [if_pos h1, if_pos h1, if_neg (by omega)]
  rfl

example : (⟨256, 128, []⟩ : Buf).cap < (⟨300, 200, [7, 8]⟩ : Buf).cap ∧
    (⟨300, 200, [7, 8]⟩ : Buf).need < (⟨300, 200, [7, 8]⟩ : Buf).cap := by decide

/-- After an assignment the number of stored buffers is that of the other job, but there are none. -/
theorem C88_assign_stored_violated : ∃ h' t', newOne.copyAssign twoHeap demoJob = .ok (h', t') ∧
    t'.numStored = 2 ∧ t'.stored = [] ∧ t'.items = [] ∧ demoJob.items = [4] := by
  obtain ⟨h', t', e, _, hp, hi, _, hs, _⟩ := C88_assign_partial twoHeap_ok newOne_ok demo_ok_two rfl (by decide)
  refine ⟨h', t', e, ?_, by rw [hs]; rfl, by rw [hi]; rfl, rfl⟩
  have := congrArg Job.numStored hp
  exact this

/-- After an assignment the job says that it has element-by-element output, but there is no configuration in its
buffer. -/
theorem C88_assign_ebe_violated : ∃ h' t', newOne.copyAssign twoHeap demoJob = .ok (h', t') ∧
    t'.hasEbe = true ∧ t'.myEbe = some 6 ∧ h'.at_ 6 = some Buf.new ∧ twoHeap.at_ 3 = some ⟨259, 259, [3]⟩ ∧
    demoJob.myEbe = some 3 := by
  obtain ⟨h', t', e, _, hp, _, _, _, he, _, _, _, hk, _⟩ :=
    C88_assign_partial twoHeap_ok newOne_ok demo_ok_two rfl (by decide)
  refine ⟨h', t', e, ?_, by rw [he]; rfl, ?_, rfl, rfl⟩
  · have := congrArg Job.hasEbe hp
    exact this
  · rw [hk 6 (by decide) (by decide) (by decide)]
    rfl

/-- A job which owns an output buffer keeps it when it is assigned a job without one, though it has no output any
more. -/
theorem C88_assign_kept_violated : ∃ h' t', demoJob.copyAssign twoHeap newOne = .ok (h', t') ∧
    t'.ownsOut = true ∧ t'.hasMon = false ∧ t'.hasEbe = false ∧ newOne.hasOut = false ∧
    h'.at_ 2 = some ⟨258, 258, [7, 8]⟩ := by
  obtain ⟨h', t', e, _, hp, _, _, _, _, _, _, ho, _⟩ :=
    C88_assign_partial twoHeap_ok demo_ok_two newOne_ok rfl (by decide)
  obtain ⟨x1, x2, x3, x4⟩ := ho.kept rfl
  refine ⟨h', t', e, ?_, ?_, ?_, rfl, ?_⟩
  · rw [Job.ownsOut, x1, x2]; rfl
  · have := congrArg Job.hasMon hp
    exact this
  · have := congrArg Job.hasEbe hp
    exact this
  · rw [x4 2 rfl]; rfl

/-! ## The job of `common/internal` -/

namespace JobCopy

structure Old.Ok (h : Heap) (j : Old) : Prop where
  nodup : j.owned.Nodup
  alive : ∀ p ∈ j.owned, (h.at_ p).isSome
  stores : ∀ s ∈ j.stored, Store.Ok s
  out : j.myOut.isSome → j.pOut = j.myOut

theorem Old.Ok.owns {h : Heap} {j : Old} (hj : j.Ok h) : j.ownsOut = j.myOut.isSome := by
  unfold Old.ownsOut
  cases hm : j.myOut with
  | none => simp
  | some m => rw [hj.out (by simp [hm]), hm]; rfl

/-- Everything but the buffers which a job may own, the output buffer, and what a copy gets wrong: the name of the
device, the keys of the address assignments and the flag for particle addresses. -/
def Old.plain (j : Old) : Old :=
  { j with
    stored := [], storedCap := 0, myOut := none, myEbe := none, myAddr := none, pOut := none, cOut := none
    deviceId := "", keys := [], hasAddr := none }

/-- For the examples. -/
def demoOld : Old :=
  { Old.new "cpu" 1 with
    deviceId := "0.0", items := [4], keys := [1], setIdx := [0, 2], numInSets := [5, 4], monIdx := [3]
    stored := [⟨some 5, some 5, some 5⟩, ⟨none, some 0, none⟩], storedCap := 2, numStored := 2
    myOut := some 2, pOut := some 2, cOut := some 2, myEbe := some 3, myAddr := some 4
    pPart := some 0, cPart := some 0, pElem := some 1, cElem := some 1, total := 9
    hasMon := true, hasEbe := true, hasAddr := some true, ebeOff := 1, untilTurn := 5 }

theorem demoOld_ok : demoOld.Ok demoHeap := by
  constructor
  · decide
  · intro p hp
    have : p = 2 ∨ p = 3 ∨ p = 4 ∨ p = 5 := by
      have h : demoOld.owned = [2, 3, 4, 5] := by decide
      rw [h] at hp
      simpa using hp
    rcases this with rfl | rfl | rfl | rfl <;> rfl
  · intro s hs
    have : s = ⟨some 5, some 5, some 5⟩ ∨ s = ⟨none, some 0, none⟩ := by simpa [demoOld] using hs
    rcases this with rfl | rfl
    · exact Or.inr ⟨rfl, rfl⟩
    · exact Or.inl rfl
  · intro; rfl

end JobCopy

/-- Copying a job of `common/internal`: as for `TrackJobBaseNew`, up to the members named in `Old.plain` and an
output buffer which the job does not own. -/
theorem C88_old_copy_partial {h : Heap} (hh : h.Ok) {o : Old} (ho : o.Ok h) :
    ∃ h' j, o.copyNew h = .ok (h', j) ∧ j.plain = o.plain ∧
      List.Forall₂ (fun s s' => StoreAlike h s h' s') o.stored j.stored ∧
      j.myEbe.map h'.at_ = o.myEbe.map h.at_ ∧ j.myAddr.map h'.at_ = o.myAddr.map h.at_ ∧
      j.myOut.map h'.at_ = o.myOut.map h.at_ ∧ j.pOut = j.myOut ∧ j.cOut = j.myOut ∧
      j.Ok h' ∧ h'.Ok ∧
      (∀ p, p < h.next → h'.at_ p = h.at_ p) ∧ ∀ p, p ∈ j.owned ↔ h.next ≤ p ∧ p < h'.next := by
  obtain ⟨h1, h2, h3, h', ss', a', b', c', e1, e2, e3, e4, m, xs, xa, xb, xc⟩ :=
    copyAll_ok (a := o.myOut) (b := o.myEbe) (c := o.myAddr) hh ho.stores ho.alive
  have eo : copyOutOld h1 o = .ok (h2, a') := by
    unfold copyOutOld
    rw [ho.owns]
    cases hm : o.myOut with
    | some _ => rw [hm] at e2; simp [e2]
    | none =>
      rw [hm] at e2
      simp only [Heap.copy] at e2
      simp [e2]
  refine ⟨h', { o with
    stored := ss', myOut := a', myEbe := b', myAddr := c', pOut := a', cOut := a', deviceId := o.typeStr
    keys := [], hasAddr := none, storedCap := ss'.length }, ?_, rfl, xs, xb, xc, xa, rfl, rfl,
    ⟨m.nodup, m.alive, ?_, fun _ => rfl⟩, m.ok, m.same, m.mem⟩
  · simp only [Old.copyNew, e1, Res.ok_bind, eo, e3, e4, Res.pure_eq]
  · intro s hs
    have : ∀ {l l' : List Store}, List.Forall₂ (fun s s' => StoreAlike h s h' s') l l' →
        ∀ s ∈ l', Store.Ok s := by
      intro l l' hf
      induction hf with
      | nil => intro s hs; cases hs
      | cons hab _ ih =>
        intro s hs
        rcases List.mem_cons.1 hs with rfl | hs
        · exact hab.ok
        · exact ih s hs
    exact this xs s hs

example : demoOld.Ok demoHeap ∧ demoHeap.Ok := ⟨demoOld_ok, demoHeap_ok⟩

/-- What every copy gets wrong: the device is named after the type, the list of keys is empty, and whether there
are particle addresses may not be asked. -/
theorem C88_old_copy_violated {h h' : Heap} {o j : Old} (e : o.copyNew h = .ok (h', j)) :
    j.deviceId = o.typeStr ∧ j.keys = [] ∧ j.hasAddresses = .ub := by
  simp only [Old.copyNew, Res.bind_eq_ok, Res.pure_eq, Res.ok_inj, Prod.mk.injEq] at e
  obtain ⟨_, _, _, _, _, _, _, _, _, rfl⟩ := e
  exact ⟨rfl, rfl, rfl⟩

/-- The copy of a job whose output buffer is the user's has no output buffer, but says that there is output. -/
theorem C88_old_copy_output_violated {h h' : Heap} {o j : Old} (e : o.copyNew h = .ok (h', j))
    (hm : o.myOut = none) : j.hasOut = false ∧ j.pOut = none ∧ j.hasMon = o.hasMon ∧ j.hasEbe = o.hasEbe := by
  have eo : ∀ h, copyOutOld h o = .ok (h, none) := by
    intro h
    simp [copyOutOld, Old.ownsOut, hm]
  simp only [Old.copyNew, eo, Res.ok_bind, Res.bind_eq_ok, Res.pure_eq, Res.ok_inj, Prod.mk.injEq] at e
  obtain ⟨_, _, _, _, _, _, _, rfl⟩ := e
  exact ⟨rfl, rfl, rfl, rfl⟩

/-- A user's output buffer. -/
example : ∃ o : Old, o.Ok demoHeap ∧ o.myOut = none ∧ o.hasOut = true ∧ o.hasMon = true := by
  refine ⟨{ demoOld with myOut := none, myEbe := none, myAddr := none, stored := [] }, ⟨by decide, ?_, ?_, ?_⟩,
    rfl, rfl, rfl⟩
  · intro p hp
    have h : ({ demoOld with myOut := none, myEbe := none, myAddr := none, stored := [] } : Old).owned = [] := by
      decide
    rw [h] at hp
    cases hp
  · intro s hs; cases hs
  · intro h; cases h

/-- A copy cannot be moved: that reads the flag which has not been initialised. -/
theorem C88_old_move_copy_violated {h h' : Heap} {o j : Old} (e : o.copyNew h = .ok (h', j)) (h2 : Heap) (t : Old) :
    j.moveNew h2 = .ub ∧ t.moveAssign h2 j = .ub := by
  have := (C88_old_copy_violated e).2.2
  simp [Old.moveNew, Old.moveAssign, this]

/-- Moving a job with an initialised flag: no buffer is touched, the new job has all members of the old one but the
name of the device and the keys, and the old one owns nothing and looks like a new job without a type, but keeps
its type id, total number of particles, keys, and debug and collect flags. -/
theorem C88_old_move_partial (h : Heap) {o : Old} {f : Bool} (hf : o.hasAddr = some f) :
    ∃ left, o.moveNew h = .ok (h, { o with deviceId := "", keys := [] }, left) ∧ left.owned = [] ∧
      { left with
          total := 0, keys := [], collect := 5, reqCollect := true, debug := false, minPart := 0, maxPart := 0
          minElem := 0, maxElem := 0, minTurn := 0, maxTurn := 0 } = Old.new "" o.typeId ∧
      left.total = o.total ∧ left.keys = o.keys ∧ left.collect = o.collect ∧
      left.reqCollect = o.reqCollect ∧ left.debug = o.debug ∧
      left.minPart = 2 ^ 63 - 1 ∧ left.maxPart = -2 ^ 63 ∧ left.minElem = 2 ^ 63 - 1 ∧ left.maxElem = -2 ^ 63 ∧
      left.minTurn = 2 ^ 63 - 1 ∧ left.maxTurn = -2 ^ 63 := by
  have hx : o.movedFrom.owned = [] := rfl
  refine ⟨o.movedFrom.cleared, ?_, ?_⟩
  · simp only [Old.moveNew, Old.hasAddresses, hf, Res.ok_bind, Old.clear, hx, Heap.freeAll, Res.pure_eq]
  · exact ⟨rfl, rfl, rfl, rfl, rfl, rfl, rfl, rfl, rfl, rfl, rfl, rfl, rfl⟩

example : demoOld.hasAddr = some true := rfl

/-- Moving loses the name of the device and the keys. -/
theorem C88_old_move_violated {h h' : Heap} {o j left : Old} (e : o.moveNew h = .ok (h', j, left)) :
    j.deviceId = "" ∧ j.keys = [] := by
  simp only [Old.moveNew, Res.bind_eq_ok, Res.pure_eq, Res.ok_inj, Prod.mk.injEq] at e
  obtain ⟨_, _, _, _, _, rfl, _⟩ := e
  exact ⟨rfl, rfl⟩

/-- Assigning a moved job: the buffers of the target are deleted, and the target is the other job but for the name
of the device and the keys. -/
theorem C88_old_move_assign_partial {h : Heap} {t r : Old} (ht : t.Ok h) {f : Bool} (hf : r.hasAddr = some f) :
    ∃ h' left, t.moveAssign h r = .ok (h', { r with deviceId := "", keys := t.keys }, left) ∧
      (∀ p, h'.at_ p = if p ∈ t.owned then none else h.at_ p) ∧ left.owned = [] ∧
      left.typeId = 0 ∧ left.hasAddr = some false ∧ left.keys = r.keys := by
  obtain ⟨h', e, _, hx⟩ := freeAll_ok ht.nodup ht.alive
  have ho : ({ r.movedFrom with typeId := 0 } : Old).owned = [] := rfl
  refine ⟨h', ({ r.movedFrom with typeId := 0 } : Old).cleared, ?_, hx, ?_⟩
  · simp only [Old.moveAssign, Old.hasAddresses, hf, Res.ok_bind, e, Old.clear, ho, Heap.freeAll, Res.pure_eq]
  · exact ⟨rfl, rfl, rfl, rfl⟩

/-- Clearing a job deletes exactly what it owns and leaves its keys and the total number of particles. -/
theorem C88_old_clear {h : Heap} {o : Old} (ho : o.Ok h) :
    ∃ h' j, o.clear h = .ok (h', j) ∧ (∀ p, h'.at_ p = if p ∈ o.owned then none else h.at_ p) ∧
      j.owned = [] ∧ j.stored = [] ∧ j.numStored = 0 ∧ j.items = [] ∧ j.keys = o.keys ∧ j.total = o.total ∧
      j.hasAddr = some false ∧ j.hasOut = false ∧ j.setIdx = [0] ∧ j.monIdx = [] := by
  obtain ⟨h', e, _, hx⟩ := freeAll_ok ho.nodup ho.alive
  refine ⟨h', o.cleared, ?_, hx, ?_⟩
  · simp only [Old.clear, e, Res.ok_bind, Res.pure_eq]
  · exact ⟨rfl, rfl, rfl, rfl, rfl, rfl, rfl, rfl, rfl, rfl⟩

namespace JobCopy

theorem copyOnto_none (h : Heap) (p : Option Nat) : h.copyOnto none p = h.copy p := by
  unfold Heap.copyOnto
  cases h.copy p with
  | ub => rfl
  | ok x => rfl

theorem assignStores_none : ∀ (rs ss : List Store) (h : Heap), ownedBy ss = [] →
    assignStores h ss rs = copyStores h rs
  | [], ss, h, hs => by simp [assignStores, hs, Heap.freeAll, copyStores]
  | r :: rs, [], h, hs => by simp [assignStores]
  | r :: rs, s :: ss, h, hs => by
    rw [ownedBy_cons] at hs
    obtain ⟨h1, h2⟩ := List.append_eq_nil_iff.1 hs
    have h3 : s.own = none := by
      cases ho : s.own with
      | none => rfl
      | some _ => rw [ho] at h1; cases h1
    have e : assignStore h s r = copyStore h r := by
      unfold assignStore copyStore
      rw [h3, copyOnto_none]
    simp only [assignStores, copyStores, e, assignStores_none rs ss _ h2]

theorem assignVector_none {h : Heap} {cap : Nat} {ss rs : List Store} (hs : ownedBy ss = []) :
    assignVector h cap ss rs = copyStores h rs := by
  unfold assignVector
  split_ifs
  · rw [hs]
    cases copyStores h rs with
    | ub => rfl
    | ok x => rfl
  · exact assignStores_none rs ss h hs

end JobCopy

/-- Assigning to a job of `common/internal` which owns nothing: like copying, but the keys and the flag for particle
addresses are left as they are, and an output buffer which the other job does not own is shared. -/
theorem C88_old_assign_partial {h : Heap} (hh : h.Ok) {t r : Old} (ht : t.owned = []) (hr : r.Ok h) :
    ∃ h' j, t.copyAssign h r = .ok (h', j) ∧ j.plain = r.plain ∧
      j.keys = t.keys ∧ j.hasAddr = t.hasAddr ∧ j.deviceId = r.typeStr ∧
      List.Forall₂ (fun s s' => StoreAlike h s h' s') r.stored j.stored ∧
      j.myEbe.map h'.at_ = r.myEbe.map h.at_ ∧ j.myAddr.map h'.at_ = r.myAddr.map h.at_ ∧
      j.myOut.map h'.at_ = r.myOut.map h.at_ ∧
      (r.myOut.isSome → j.pOut = j.myOut ∧ j.cOut = j.myOut) ∧
      (r.myOut = none → j.pOut = r.pOut ∧ j.cOut = r.cOut) ∧
      (∀ p, p < h.next → h'.at_ p = h.at_ p) ∧ ∀ p, p ∈ j.owned ↔ h.next ≤ p ∧ p < h'.next := by
  simp only [Old.owned, List.append_eq_nil_iff] at ht
  obtain ⟨⟨⟨ht1, ht2⟩, ht3⟩, ht4⟩ := ht
  have hto : t.myOut = none := by cases hx : t.myOut with | none => rfl | some _ => rw [hx] at ht1; cases ht1
  have hte : t.myEbe = none := by cases hx : t.myEbe with | none => rfl | some _ => rw [hx] at ht2; cases ht2
  have hta : t.myAddr = none := by cases hx : t.myAddr with | none => rfl | some _ => rw [hx] at ht3; cases ht3
  obtain ⟨h1, h2, h3, h', ss', a', b', c', e1, e2, e3, e4, m, xs, xa, xb, xc⟩ :=
    copyAll_ok (a := r.myOut) (b := r.myEbe) (c := r.myAddr) hh hr.stores hr.alive
  have hsome : a'.isSome = r.myOut.isSome := by
    have := congrArg Option.isSome xa
    simpa using this
  have hpl : (assignPlainOld t r).myOut = none := hto
  have eo : assignOutOld h1 (assignPlainOld t r) r = .ok (h2, { assignPlainOld t r with
      myOut := a', pOut := if r.myOut.isSome then a' else r.pOut
      cOut := if r.myOut.isSome then a' else r.cOut }) := by
    unfold assignOutOld
    rw [hr.owns, hpl, copyOnto_none]
    cases hm : r.myOut with
    | some x =>
      rw [hm] at e2 hsome
      have : a'.isSome := by rw [hsome]; rfl
      simp [e2, this]
    | none =>
      rw [hm] at e2
      simp only [Heap.copy, Res.ok_inj, Prod.mk.injEq] at e2
      obtain ⟨rfl, rfl⟩ := e2
      simp [assignPlainOld, hto]
  refine ⟨h', { assignPlainOld t r with
      myOut := a', pOut := if r.myOut.isSome then a' else r.pOut
      cOut := if r.myOut.isSome then a' else r.cOut
      stored := ss', storedCap := max t.storedCap r.stored.length, myEbe := b', myAddr := c' },
    ?_, rfl, rfl, rfl, rfl, xs, xb, xc, xa, ?_, ?_, m.same, m.mem⟩
  · simp only [Old.copyAssign, assignVector_none ht4, e1, Res.ok_bind, eo, hte, hta, copyOnto_none, e3, e4,
      Res.pure_eq]
  · intro hs; simp [hs]
  · intro hn; simp [hn]

example : (Old.new "opencl" 2).owned = [] ∧ demoOld.Ok demoHeap := ⟨rfl, demoOld_ok⟩

/-- A stored buffer which the other job does not own is assigned to a slot which owns one: the slot says that it
owns the buffer, but the one which it owns is another one. -/
theorem C88_old_assign_stored_violated : ∃ h' j t r,
    t.Ok demoHeap ∧ r.Ok demoHeap ∧ Old.copyAssign demoHeap t r = .ok (h', j) ∧
    r.stored = [⟨some 0, some 0, none⟩] ∧ j.stored = [⟨some 0, some 0, some 5⟩] := by
  refine ⟨demoHeap, _, { Old.new "cpu" 1 with stored := [⟨some 5, some 5, some 5⟩], storedCap := 1, numStored := 1 },
    { Old.new "cpu" 1 with stored := [⟨some 0, some 0, none⟩], storedCap := 1, numStored := 1 },
    ⟨by decide, ?_, ?_, ?_⟩, ⟨by decide, ?_, ?_, ?_⟩, rfl, rfl, rfl⟩
  · intro p hp
    have : p = 5 := by simpa [Old.owned, Old.new, ownedBy] using hp
    subst this
    rfl
  · intro s hs
    have : s = ⟨some 5, some 5, some 5⟩ := by simpa using hs
    subst this
    exact Or.inr ⟨rfl, rfl⟩
  · intro h; cases h
  · intro p hp
    simp [Old.owned, Old.new, ownedBy] at hp
  · intro s hs
    have : s = ⟨some 0, some 0, none⟩ := by simpa using hs
    subst this
    exact Or.inl rfl
  · intro h; cases h

/-- A job which owns an output buffer and is assigned one which does not keeps the buffer, and says that it owns the
user's. -/
theorem C88_old_assign_output_violated {h h' : Heap} {t r j : Old} (e : t.copyAssign h r = .ok (h', j))
    (hto : t.myOut.isSome) (hro : r.myOut = none) (hrp : r.pOut.isSome) :
    j.ownsOut = true ∧ j.pOut = r.pOut ∧ j.myOut = t.myOut := by
  have eo : ∀ h, assignOutOld h (assignPlainOld t r) r =
      .ok (h, { assignPlainOld t r with pOut := r.pOut, cOut := r.cOut }) := by
    intro h
    simp [assignOutOld, Old.ownsOut, hro]
  simp only [Old.copyAssign, eo, Res.ok_bind, Res.bind_eq_ok, Res.pure_eq, Res.ok_inj, Prod.mk.injEq] at e
  obtain ⟨_, _, _, _, _, _, _, rfl⟩ := e
  exact ⟨by simp [Old.ownsOut, assignPlainOld, hto, hrp], rfl, rfl⟩

example : ∃ h' j, demoOld.copyAssign demoHeap { Old.new "cpu" 1 with pOut := some 1, cOut := some 1 } = .ok (h', j) :=
  ⟨_, _, rfl⟩

/-- Assigning to a job of `common/internal` which may own buffers: the target gets copies of all that the other job
owns; what it owns afterwards is new (`made`) or was its own before (`kept`), and what it does not own any more has
been deleted (`freed`).  Nothing else changes, and nothing is deleted twice. -/
theorem C88_old_assign_frees_partial {h : Heap} (hh : h.Ok) {t r : Old} (ht : t.Ok h) (hr : r.Ok h)
    (hd : ∀ p ∈ t.owned, p ∉ r.owned) :
    ∃ h' j made kept freed, t.copyAssign h r = .ok (h', j) ∧ j.plain = r.plain ∧
      j.myEbe.map h'.at_ = r.myEbe.map h.at_ ∧ j.myAddr.map h'.at_ = r.myAddr.map h.at_ ∧
      (r.myOut.isSome → j.myOut.map h'.at_ = r.myOut.map h.at_ ∧ j.pOut = j.myOut ∧ j.cOut = j.myOut) ∧
      (r.myOut = none → j.myOut = t.myOut ∧ j.pOut = r.pOut ∧ j.cOut = r.cOut) ∧
      List.Forall₂ (fun s s' => Taken h s h' s') r.stored j.stored ∧
      j.owned.Perm (made ++ kept) ∧ t.owned.Perm (kept ++ freed) ∧ j.owned.Nodup ∧
      (∀ p ∈ j.owned, (h'.at_ p).isSome) ∧ (∀ p, p ∈ made ↔ h.next ≤ p ∧ p < h'.next) ∧
      ∀ p, p < h.next → h'.at_ p = if p ∈ freed then none else h.at_ p := by
  have hal : ∀ p, p ∈ t.myOut.toList ∨ p ∈ t.myEbe.toList ∨ p ∈ t.myAddr.toList ∨ p ∈ ownedBy t.stored →
      p ∈ t.owned := by
    intro p hp
    simp only [Old.owned, List.mem_append]
    tauto
  have har : ∀ p, p ∈ r.myOut.toList ∨ p ∈ r.myEbe.toList ∨ p ∈ r.myAddr.toList ∨ p ∈ ownedBy r.stored →
      p ∈ r.owned := by
    intro p hp
    simp only [Old.owned, List.mem_append]
    tauto
  have hlt : ∀ p ∈ t.owned, p < h.next := fun p hp => Heap.ok_lt hh (ht.alive p hp)
  have hnd := ht.nodup
  simp only [Old.owned, List.nodup_append', List.disjoint_append_left] at hnd
  obtain ⟨⟨⟨-, -, hd1⟩, -, hd2, hd3⟩, hns, ⟨hd4, hd5⟩, hd6⟩ := hnd
  obtain ⟨h1, ss', m1, k1, f1, e1, c1, p1, q1, x1⟩ := assignVector_ok t.storedCap hh hr.stores hns
    (fun p hp => ht.alive p (hal p (by tauto))) (fun p hp => hr.alive p (har p (by tauto)))
    (fun p hp hc => hd p (hal p (by tauto)) (har p (by tauto)))
  have hf1 : ∀ p ∈ f1, p ∈ ownedBy t.stored := fun p hp => q1.mem_iff.2 (List.mem_append_right _ hp)
  have hft1 : ∀ p ∈ f1, p ∈ t.owned := fun p hp => hal p (by have := hf1 p hp; tauto)
  -- the output buffer
  obtain ⟨h2, a', m2, k2, f2, eo, c2, p2, q2, hx2, hy2⟩ : ∃ h2 a' m2 k2 f2,
      assignOutOld h1 (assignPlainOld t r) r = .ok (h2, { assignPlainOld t r with
        myOut := a', pOut := if r.myOut.isSome then a' else r.pOut
        cOut := if r.myOut.isSome then a' else r.cOut }) ∧ Changed h1 h2 m2 f2 ∧
      a'.toList.Perm (m2 ++ k2) ∧ t.myOut.toList.Perm (k2 ++ f2) ∧
      (r.myOut.isSome → CopiedNew h1 r.myOut h2 a') ∧ (r.myOut = none → a' = t.myOut) := by
    unfold assignOutOld
    rw [hr.owns]
    by_cases hm : r.myOut.isSome
    · obtain ⟨h2, q, e, c, x⟩ := copyOnto_ok c1.ok (old := t.myOut) (src := r.myOut)
        (fun p hp => c1.alive_later hh (ht.alive p (hal p (by tauto))) fun hc => hd4 hp (hf1 p hc))
        (fun p hp => c1.alive_later hh (hr.alive p (har p (by tauto))) fun hc =>
          hd p (hft1 p hc) (har p (by tauto)))
      have hq : q.isSome := by
        have := congrArg Option.isSome x.1
        simpa [hm] using this
      have e' : h1.copyOnto (assignPlainOld t r).myOut r.myOut = .ok (h2, q) := e
      refine ⟨h2, q, q.toList, [], t.myOut.toList, ?_, c, by simp, by simp, fun _ => x, fun hn => ?_⟩
      · simp [hm, e', hq]
      · rw [hn] at hm; cases hm
    · refine ⟨h1, t.myOut, [], t.myOut.toList, [], ?_, Changed.refl c1.ok, by simp, by simp,
        fun hc => absurd hc hm, fun _ => rfl⟩
      simp only [hm, if_false, Bool.false_eq_true]
      rfl
  have hf2 : ∀ p ∈ f2, p ∈ t.myOut.toList := fun p hp => q2.mem_iff.2 (List.mem_append_right _ hp)
  have hft2 : ∀ p ∈ f2, p ∈ t.owned := fun p hp => hal p (by have := hf2 p hp; tauto)
  have c12 := c1.trans c2 fun p hp => hlt p (hft2 p hp)
  have hft12 : ∀ p ∈ f1 ++ f2, p ∈ t.owned := fun p hp => (List.mem_append.1 hp).elim (hft1 p) (hft2 p)
  -- the other two buffers
  obtain ⟨h3, b', e3, c3, x3⟩ := copyOnto_ok c12.ok (old := t.myEbe) (src := r.myEbe)
    (fun p hp => c12.alive_later hh (ht.alive p (hal p (by tauto))) fun hc =>
      (List.mem_append.1 hc).elim (fun hc => hd5 hp (hf1 p hc)) fun hc => hd1 (hf2 p hc) hp)
    (fun p hp => c12.alive_later hh (hr.alive p (har p (by tauto))) fun hc =>
      hd p (hft12 p hc) (har p (by tauto)))
  have hft3 : ∀ p ∈ t.myEbe.toList, p ∈ t.owned := fun p hp => hal p (by tauto)
  have c13 := c12.trans c3 fun p hp => hlt p (hft3 p hp)
  have hft13 : ∀ p ∈ f1 ++ f2 ++ t.myEbe.toList, p ∈ t.owned := fun p hp =>
    (List.mem_append.1 hp).elim (hft12 p) (hft3 p)
  obtain ⟨h4, d', e4, c4, x4⟩ := copyOnto_ok c13.ok (old := t.myAddr) (src := r.myAddr)
    (fun p hp => c13.alive_later hh (ht.alive p (hal p (by tauto))) fun hc =>
      (List.mem_append.1 hc).elim (fun hc => (List.mem_append.1 hc).elim (fun hc => hd6 hp (hf1 p hc))
        fun hc => hd2 (hf2 p hc) hp) fun hc => hd3 hc hp)
    (fun p hp => c13.alive_later hh (hr.alive p (har p (by tauto))) fun hc =>
      hd p (hft13 p hc) (har p (by tauto)))
  have hft4 : ∀ p ∈ t.myAddr.toList, p ∈ t.owned := fun p hp => hal p (by tauto)
  have c14 := c13.trans c4 fun p hp => hlt p (hft4 p hp)
  -- the job
  have hQ : t.owned.Perm (k1 ++ k2 ++ (f1 ++ f2 ++ t.myEbe.toList ++ t.myAddr.toList)) := by
    refine List.perm_iff_count.2 fun a => ?_
    have u := List.perm_iff_count.1 q1 a
    have v := List.perm_iff_count.1 q2 a
    simp only [Old.owned, List.count_append] at u v ⊢
    omega
  have hP : (a'.toList ++ b'.toList ++ d'.toList ++ ownedBy ss').Perm
      (m1 ++ m2 ++ b'.toList ++ d'.toList ++ (k1 ++ k2)) := by
    refine List.perm_iff_count.2 fun a => ?_
    have u := List.perm_iff_count.1 p1 a
    have v := List.perm_iff_count.1 p2 a
    simp only [List.count_append] at u v ⊢
    omega
  have hkt : ∀ p ∈ k1 ++ k2, p ∈ t.owned := fun p hp => hQ.mem_iff.2 (List.mem_append_left _ hp)
  have hQn := hQ.nodup_iff.1 ht.nodup
  rw [List.nodup_append'] at hQn
  refine ⟨h4, { assignPlainOld t r with
      myOut := a', pOut := if r.myOut.isSome then a' else r.pOut
      cOut := if r.myOut.isSome then a' else r.cOut
      stored := ss', storedCap := max t.storedCap r.stored.length, myEbe := b', myAddr := d' },
    m1 ++ m2 ++ b'.toList ++ d'.toList, k1 ++ k2, f1 ++ f2 ++ t.myEbe.toList ++ t.myAddr.toList,
    ?_, rfl, ?_, ?_, ?_, ?_, ?_, ?_, ?_, ?_, ?_, c14.mem, c14.same⟩
  · simp only [Old.copyAssign, e1, Res.ok_bind, eo, e3, e4, Res.pure_eq]
  · refine ((x3.earlier c12 hh fun p hp => ⟨hr.alive p (har p (by tauto)), fun hc =>
      hd p (hft12 p hc) (har p (by tauto))⟩).later c13 c4 fun p hp => hlt p (hft4 p hp)).1
  · exact (x4.earlier c13 hh fun p hp => ⟨hr.alive p (har p (by tauto)), fun hc =>
      hd p (hft13 p hc) (har p (by tauto))⟩).1
  · intro hm
    refine ⟨?_, by simp [hm], by simp [hm]⟩
    have y := (hx2 hm).earlier c1 hh fun p hp => ⟨hr.alive p (har p (by tauto)), fun hc =>
      hd p (hft1 p hc) (har p (by tauto))⟩
    exact ((y.later c12 c3 fun p hp => hlt p (hft3 p hp)).later c13 c4 fun p hp => hlt p (hft4 p hp)).1
  · intro hm
    exact ⟨hy2 hm, by simp [hm], by simp [hm]⟩
  · refine forall₂_own (P := fun _ => True) (fun _ _ => trivial) x1 ?_
    intro s s' _ y
    exact ((y.later c1 c2 fun p hp => hlt p (hft2 p hp)).later c12 c3 fun p hp => hlt p (hft3 p hp)).later c13 c4
      fun p hp => hlt p (hft4 p hp)
  · exact hP
  · exact hQ
  · refine hP.nodup_iff.2 (List.Nodup.append c14.nodup hQn.1 ?_)
    intro p hp1 hp2
    have u := ((c14.mem p).1 hp1).1
    have v := hlt p (hkt p hp2)
    omega
  · intro p hp
    rcases List.mem_append.1 (hP.mem_iff.1 hp) with hp | hp
    · exact c14.alive p hp
    · exact c14.alive_later hh (ht.alive p (hkt p hp)) fun hc => hQn.2.2 hp hc

/-- Assigning a job to itself is not meant here; two jobs which do not share what they own. -/
example : ∃ h t r, Heap.Ok h ∧ Old.Ok h t ∧ Old.Ok h r ∧ (∀ p ∈ t.owned, p ∉ r.owned) ∧ t.owned ≠ [] ∧
    r.owned ≠ [] ∧ t.stored ≠ [] := by
  refine ⟨twoHeap, demoOld, { Old.new "cpu" 1 with myEbe := some 6, myAddr := some 7 }, twoHeap_ok,
    ⟨demoOld_ok.nodup, ?_, demoOld_ok.stores, demoOld_ok.out⟩, ⟨by decide, ?_, ?_, ?_⟩, by decide, by decide,
    by decide⟩
  · intro p hp
    have h : demoOld.owned = [2, 3, 4, 5] := by decide
    rw [h] at hp
    have : p = 2 ∨ p = 3 ∨ p = 4 ∨ p = 5 := by simpa using hp
    rcases this with rfl | rfl | rfl | rfl <;> rfl
  · intro p hp
    have h : ({ Old.new "cpu" 1 with myEbe := some 6, myAddr := some 7 } : Old).owned = [6, 7] := by decide
    rw [h] at hp
    have : p = 6 ∨ p = 7 := by simpa using hp
    rcases this with rfl | rfl <;> rfl
  · intro s hs; cases hs
  · intro h; cases h

/-! ## New and cleared jobs -/

/-- A new job has one particle set, the first, no buffers but two empty ones which it owns, and nothing stored. -/
theorem C88_new (h : Heap) (hh : h.Ok) (archId : Nat) (archStr config : String) :
    ∃ h' j, Job.new h archId archStr config = (h', j) ∧ j.Ok h' ∧ h'.Ok ∧ j.archId = archId ∧
      j.archStr = archStr ∧ j.config = config ∧
      (∀ p, p ∈ j.owned ↔ h.next ≤ p ∧ p < h'.next) ∧ (∀ p, p < h.next → h'.at_ p = h.at_ p) ∧
      (j.myEbe.bind h'.at_).map (·.objs) = some [] ∧ (j.myAddr.bind h'.at_).map (·.objs) = some [] ∧
      j.hasOut = false ∧ j.borrowed = [] ∧ j.stored = [] ∧ j.numStored = 0 ∧ j.items = [] ∧ j.keys = [] ∧
      j.setIdx = [0] ∧ j.setBegin = [0] ∧ j.setEnd = [0] ∧ j.monIdx = [] ∧
      j.hasMon = false ∧ j.hasEbe = false ∧ j.hasAddr = false ∧ j.debug = false := by
  have m1 := Made.new hh Buf.new
  have m := m1.trans (Made.new m1.ok Buf.new)
  refine ⟨_, _, rfl, ⟨m.nodup, m.alive, ?_, ?_, ?_⟩, m.ok, rfl, rfl, rfl, m.mem, m.same, ?_⟩
  · intro s hs; cases hs
  · intro h; cases h
  · intro h; cases h
  · refine ⟨?_, ?_, rfl, rfl, rfl, rfl, rfl, rfl, rfl, rfl, rfl, rfl, rfl, rfl, rfl, rfl⟩
    · simp [Heap.new, Buf.new]
    · simp [Heap.new, Buf.new]

/-- Clearing what a job knows about its particles empties its buffer of addresses and nothing else; the limits are
set so that any particle replaces them. -/
theorem C88_clear_particles {h : Heap} {j : Job} (ha : ∀ p ∈ j.myAddr.toList, (h.at_ p).isSome) :
    ∃ h' j', j.clearParticles h = .ok (h', j') ∧ h'.next = h.next ∧ j'.owned = j.owned ∧
      (∀ p, j.myAddr = some p → (h'.at_ p).map (·.objs) = some [] ∧ (h'.at_ p).map (·.cap) = (h.at_ p).map (·.cap)) ∧
      (∀ p, j.myAddr ≠ some p → h'.at_ p = h.at_ p) ∧
      j'.hasAddr = false ∧ j'.pPart = none ∧ j'.cPart = none ∧ j'.numPart = 0 ∧ j'.numPartSets = 0 ∧
      j'.numSets = 0 ∧ j'.setIdx = [0] ∧ j'.setBegin = [0] ∧ j'.setEnd = [0] ∧
      (∀ x : Int, -2 ^ 63 ≤ x → x < 2 ^ 63 → x ≤ j'.minPart ∧ x ≤ j'.minElem ∧ x ≤ j'.minTurn ∧
        j'.maxPart ≤ x ∧ j'.maxElem ≤ x ∧ j'.maxTurn ≤ x) ∧
      ({ j' with
          hasAddr := j.hasAddr, pPart := j.pPart, cPart := j.cPart, numPart := j.numPart
          numPartSets := j.numPartSets, numSets := j.numSets, setIdx := j.setIdx, setBegin := j.setBegin
          setEnd := j.setEnd, minPart := j.minPart, maxPart := j.maxPart, minElem := j.minElem
          maxElem := j.maxElem, minTurn := j.minTurn, maxTurn := j.maxTurn } : Job) = j := by
  obtain ⟨h', e, hn, hx, hy⟩ : ∃ h', h.resetAt j.myAddr = .ok h' ∧ h'.next = h.next ∧
      (∀ p, j.myAddr = some p → (h'.at_ p).map (·.objs) = some [] ∧
        (h'.at_ p).map (·.cap) = (h.at_ p).map (·.cap)) ∧
      (∀ p, j.myAddr ≠ some p → h'.at_ p = h.at_ p) := by
    cases hm : j.myAddr with
    | none => exact ⟨h, rfl, rfl, fun p hp => (by cases hp), fun _ _ => rfl⟩
    | some a =>
      obtain ⟨b, hb⟩ := Option.isSome_iff_exists.1 (ha a (by simp [hm]))
      refine ⟨{ h with at_ := fun q => if q = a then some b.reset else h.at_ q }, ?_, rfl, ?_, ?_⟩
      · simp [Heap.resetAt, Heap.get, Heap.set, hb]
      · intro p hp
        cases hp
        simp [hb, Buf.reset]
      · intro p hp
        have : p ≠ a := fun e => hp (by rw [e])
        simp [this]
  refine ⟨h', { j with
      pPart := none, cPart := none, numPart := 0, numPartSets := 0, numSets := 0
      setIdx := [0], setBegin := [0], setEnd := [0]
      minPart := MAX_VALUE, maxPart := MIN_VALUE, minElem := MAX_VALUE, maxElem := MIN_VALUE
      minTurn := MAX_VALUE, maxTurn := MIN_VALUE, hasAddr := false },
    by simp only [Job.clearParticles, e, Res.ok_bind, Res.pure_eq], hn, rfl, hx, hy, rfl, rfl, rfl, rfl,
    rfl, rfl, rfl, rfl, rfl, ?_, rfl⟩
  intro x h1 h2
  have h3 : x ≤ MAX_VALUE := by unfold MAX_VALUE; omega
  have h4 : MIN_VALUE ≤ x := by unfold MIN_VALUE; omega
  exact ⟨h3, h3, h3, h4, h4, h4⟩

example : ∀ p ∈ demoJob.myAddr.toList, (demoHeap.at_ p).isSome := by
  intro p hp
  have : p = 4 := by simpa [demoJob, Job.new] using hp
  subst this
  rfl

/-- Clearing the output of a job deletes the output buffer if the job owns it, and empties its element-by-element
buffer; all other buffers are left alone. -/
theorem C88_clear_output {h : Heap} {j : Job} (hj : j.Ok h) {e : Nat} (he : j.myEbe = some e) :
    ∃ h' j', j.clearOutput h = .ok (h', j') ∧ (h'.at_ e).map (·.objs) = some [] ∧
      (∀ p, j.myOut = some p → h'.at_ p = none) ∧
      (∀ p, p ≠ e → j.myOut ≠ some p → h'.at_ p = h.at_ p) ∧
      j'.hasOut = false ∧ j'.ownsOut = false ∧ j'.myOut = none ∧ j'.pOut = none ∧ j'.myEbe = some e ∧
      j'.hasMon = false ∧ j'.hasEbe = false ∧ j'.rolling = true ∧ j'.untilTurn = 0 ∧ j'.monOff = 0 ∧
      j'.ebeOff = 0 ∧ j'.ebeCfg = 0 ∧ j'.ebeOrder = 0 ∧
      ({ j' with
          pOut := j.pOut, cOut := j.cOut, hasMon := j.hasMon, hasEbe := j.hasEbe, monOff := j.monOff
          ebeOff := j.ebeOff, untilTurn := j.untilTurn, ebeCfg := j.ebeCfg, myOut := j.myOut
          ebeOrder := j.ebeOrder, rolling := j.rolling } : Job) = j := by
  obtain ⟨b, hb⟩ := Option.isSome_iff_exists.1 (hj.alive e (by simp [Job.owned, he]))
  have hne : ∀ p, j.myOut = some p → p ≠ e := by
    intro p hp hc
    have hnd := hj.nodup
    simp only [Job.owned, List.nodup_append', List.disjoint_append_left] at hnd
    have hdj : List.Disjoint j.myOut.toList j.myEbe.toList := hnd.1.1.2.2
    exact hdj (a := p) (by simp [hp]) (by simp [he, hc])
  have e1 : h.resetAt (some e) = .ok { h with at_ := fun q => if q = e then some b.reset else h.at_ q } := by
    simp [Heap.resetAt, Heap.get, Heap.set, hb]
  obtain ⟨h', e2, -, hx⟩ := freeAll_ok (l := j.myOut.toList)
    (h := { h with at_ := fun q => if q = e then some b.reset else h.at_ q })
    (by cases j.myOut <;> simp) (fun p hp => by
      have hp' : j.myOut = some p := by simpa using hp
      simp only [hne p hp', if_false]
      exact hj.alive p (by simp [Job.owned, hp']))
  refine ⟨h', { j with
      pOut := none, cOut := none, hasMon := false, hasEbe := false, monOff := 0, ebeOff := 0, untilTurn := 0
      ebeCfg := 0, myOut := none, ebeOrder := 0, rolling := true },
    by simp only [Job.clearOutput, he, e1, e2, Res.ok_bind, Res.pure_eq], ?_, ?_, ?_, rfl, rfl, rfl,
    rfl, he, rfl, rfl, rfl, rfl, rfl, rfl, rfl, rfl, rfl⟩
  · rw [hx, if_neg]
    · simp [Buf.reset]
    · intro hc
      exact hne e (by simpa using hc) rfl
  · intro p hp
    rw [hx, if_pos (by simp [hp])]
  · intro p hp1 hp2
    rw [hx, if_neg (by simpa using hp2)]
    simp [hp1]

example : demoJob.Ok demoHeap ∧ demoJob.myEbe = some 3 := ⟨demo_ok, rfl⟩

/-- The copy of a job of `common/internal` has an output buffer exactly if the job owns one; so does an assigned
job, or if the other one has one. -/
theorem C88_old_copy_has_output {h h' : Heap} (hh : h.Ok) {o j : Old} (ho : o.Ok h)
    (e : o.copyNew h = .ok (h', j)) : j.hasOut = o.ownsOut := by
  obtain ⟨_, _, e', _, _, _, _, hx, _, hc, _⟩ := C88_old_copy_partial hh ho
  rw [e] at e'
  simp only [Res.ok_inj, Prod.mk.injEq] at e'
  obtain ⟨rfl, rfl⟩ := e'
  have := congrArg Option.isSome hx
  rw [Old.hasOut, hc, ho.owns]
  simpa using this

/-- A C buffer given as output is an output buffer, though there is no pointer to a C++ buffer. -/
theorem C88_old_has_output_c (o : Old) (p : Nat) : ({ o with cOut := some p, pOut := none } : Old).hasOut = true ∧
    ({ o with cOut := some p, pOut := none } : Old).ownsOut = false ∧
    ({ o with cOut := none } : Old).hasOut = false := ⟨rfl, rfl, rfl⟩

end SixTrack
