import Verif.CudaStoreLemmas
import Verif.Props.ParticlesAddr
import Verif.Props.WorkItems

/-!
# C104: the CUDA kernel that stores addresses does so for every order of its threads
-/

namespace SixTrack
open SixTrack.CudaStore SixTrack.ParticlesAddr SixTrack.WorkItems

/-- All threads of the launch have come to their end. -/
def ThreadsEnded (grid block : Dim3) (w : World) : Prop := ∀ p, ThreadOf grid block p → w.phase p = .done

private theorem stride_pos {grid block : Dim3} (hf : Fits grid block) (hg : 0 < volume grid) (hb : 0 < volume block) :
    (totalThreads grid block).toNat = volume grid * volume block := by
  have hz : ∀ {d : Dim3}, 0 < volume d → 0 < d.z.toNat := fun {d} h =>
    Nat.pos_of_ne_zero fun h0 => by simp [volume, h0] at h
  exact (C78_total grid block hf (hz hg) (hz hb)).2.2

private theorem launch_good {grid block : Dim3} (hf : Fits grid block) (hg : 0 < volume grid) (hb : 0 < volume block) (debug : Bool)
    (ab pb : List (Option Rec)) (h : ab.length ≤ pb.length) (reg : BitVec 64) (sched : List (Dim3 × Dim3)) :
    ∃ w, launch grid block debug ab pb reg sched = .ok w ∧
      Good debug ab pb reg (volume grid * volume block) (fun p => (threadId grid block p.2 p.1).toNat) w := by
  unfold launch
  rw [stride_pos hf hg hb]
  exact Good.steps h (Nat.mul_pos hg hb) sched _ (Good.init ..)

/-- the thread that takes object `i` -/
private theorem owner {grid block : Dim3} (hf : Fits grid block) (hg : 0 < volume grid) (hb : 0 < volume block) (i : Nat) :
    ∃ p m, ThreadOf grid block p ∧ i = (threadId grid block p.2 p.1).toNat + m * (volume grid * volume block) := by
  obtain ⟨p, h1, h2, -⟩ := (C78_numbering grid block hf).2 (i % (volume grid * volume block)) (Nat.mod_lt _ (Nat.mul_pos hg hb))
  exact ⟨p, i / (volume grid * volume block), h1, by rw [h2, Nat.mul_comm (i / _), Nat.mod_add_div]⟩

private theorem all_did {grid block : Dim3} (hf : Fits grid block) (hg : 0 < volume grid) (hb : 0 < volume block) {debug : Bool}
    {ab pb : List (Option Rec)} {reg : BitVec 64} {w : World}
    (h : Good debug ab pb reg (volume grid * volume block) (fun p => (threadId grid block p.2 p.1).toNat) w)
    (hd : ThreadsEnded grid block w) (hr : ¬ (Bad debug ab ∧ w.reg = reg ||| failFlags ab.length pb.length)) (i : Nat)
    (hi : i < ab.length) : Did debug ab pb w i := by
  obtain ⟨p, m, hp, e⟩ := owner hf hg hb i
  have := h.threads p
  rw [hd p hp] at this
  rcases this with h1 | h1
  · rw [e]
    exact h1 m (e ▸ hi)
  · exact absurd h1 hr

private theorem stored_some {ab pb : List (Option Rec)} {i : Nat} {r : Rec} {p : Option Rec} (h : ab[i]? = some (some r))
    (hp : pb[i]? = some p) : storedAt ab pb i = some (some (p.getD ⟨0, fun _ => 0⟩)) := by
  unfold storedAt
  rw [h, hp]
  rfl

private theorem stored_none {ab pb : List (Option Rec)} {i : Nat} (h : ∀ r, ab[i]? ≠ some (some r)) : storedAt ab pb i = ab[i]? := by
  unfold storedAt
  split
  · rename_i r _ e _
    exact absurd e (h r)
  · rfl

/-- C104: whatever the blocks and in whatever order the threads make their steps, the kernel does not go wrong, and when all threads
have ended every record holds the addresses of its set and everything else is as before. -/
theorem C104_stores_partial (grid block : Dim3) (hf : Fits grid block) (hg : 0 < volume grid) (hb : 0 < volume block)
    (debug : Bool) (ab pb : List (Option Rec)) (h : ab.length ≤ pb.length) (hr : debug = true → ∀ o ∈ ab, o ≠ none) (reg : BitVec 64)
    (sched : List (Dim3 × Dim3)) :
    ∃ w, launch grid block debug ab pb reg sched = .ok w ∧ w.reg = reg ∧ w.ab.length = ab.length ∧
      (∀ i : Nat, (∀ r, ab[i]? ≠ some (some r)) → w.ab[i]? = ab[i]?) ∧
      (ThreadsEnded grid block w → ∀ (i : Nat) r p, ab[i]? = some (some r) → pb[i]? = some p → w.ab[i]? = some (some (p.getD ⟨0, fun _ => 0⟩))) := by
  obtain ⟨w, h1, h2⟩ := launch_good hf hg hb debug ab pb h reg sched
  have hbad : ¬ Bad debug ab := fun ⟨hd, i, hi⟩ => hr hd none (List.mem_of_getElem? hi) rfl
  refine ⟨w, h1, ?_, h2.len, fun i hi => ?_, fun hd i r p hi hp => ?_⟩
  · rcases h2.reg_or with e | e
    · exact e
    · exact absurd e.1 hbad
  · rcases h2.each i with e | e
    · exact e
    · rw [e, stored_none hi]
  · rw [(all_did hf hg hb h2 hd (fun x => hbad x.1) i (List.getElem?_eq_some_iff.1 hi).1).1, stored_some hi hp]

/-- C104: the result does not depend on the blocks, on the order of the steps or on the mode. -/
theorem C104_same (grid block grid' block' : Dim3) (hf : Fits grid block) (hg : 0 < volume grid) (hb : 0 < volume block)
    (hf' : Fits grid' block') (hg' : 0 < volume grid') (hb' : 0 < volume block') (debug debug' : Bool)
    (ab pb : List (Option Rec)) (h : ab.length ≤ pb.length) (hr : ∀ o ∈ ab, o ≠ none) (reg reg' : BitVec 64)
    (sched sched' : List (Dim3 × Dim3)) (w w' : World) (h1 : launch grid block debug ab pb reg sched = .ok w)
    (h2 : launch grid' block' debug' ab pb reg' sched' = .ok w') (hd : ThreadsEnded grid block w) (hd' : ThreadsEnded grid' block' w') :
    w.ab = w'.ab := by
  obtain ⟨v, e1, -, -, a1, a2⟩ := C104_stores_partial grid block hf hg hb debug ab pb h (fun _ => hr) reg sched
  obtain ⟨v', e1', -, -, a1', a2'⟩ := C104_stores_partial grid' block' hf' hg' hb' debug' ab pb h (fun _ => hr) reg' sched'
  cases h1.symm.trans e1
  cases h2.symm.trans e1'
  apply List.ext_getElem?
  intro i
  by_cases hi : ∃ r, ab[i]? = some (some r)
  · obtain ⟨r, hi⟩ := hi
    have hlt := (List.getElem?_eq_some_iff.1 hi).1
    have hp : pb[i]? = some pb[i] := List.getElem?_eq_getElem (by omega)
    rw [a2 hd i r _ hi hp, a2' hd' i r _ hi hp]
  · have hi : ∀ r, ab[i]? ≠ some (some r) := fun r e => hi ⟨r, e⟩
    rw [a1 i hi, a1' i hi]

/-- C104: an object that is no record is reported in the debug mode although the register is not changed atomically; every record
holds the addresses of its set or what it held before. -/
theorem C104_reported (grid block : Dim3) (hf : Fits grid block) (hg : 0 < volume grid) (hb : 0 < volume block)
    (ab pb : List (Option Rec)) (h : ab.length ≤ pb.length) (hn : none ∈ ab) (sched : List (Dim3 × Dim3)) :
    ∃ w, launch grid block true ab pb 0#64 sched = .ok w ∧
      (∀ i : Nat, w.ab[i]? = ab[i]? ∨ ∃ p, pb[i]? = some p ∧ w.ab[i]? = some (some (p.getD ⟨0, fun _ => 0⟩))) ∧
      (ThreadsEnded grid block w → DebugReg.evaluate w.reg = .ok (-1#32) ∧ w.reg.getLsbD 32 = true ∧
        (w.reg.getLsbD 33 = true ↔ pb.length ≠ ab.length)) := by
  obtain ⟨w, h1, h2⟩ := launch_good hf hg hb true ab pb h 0#64 sched
  refine ⟨w, h1, fun i => ?_, fun hd => ?_⟩
  · rcases h2.each i with e | e
    · exact .inl e
    · by_cases hi : ∃ r, ab[i]? = some (some r)
      · obtain ⟨r, hi⟩ := hi
        have hlt := (List.getElem?_eq_some_iff.1 hi).1
        have hp : pb[i]? = some pb[i] := List.getElem?_eq_getElem (by omega)
        exact .inr ⟨_, hp, e.trans (stored_some hi hp)⟩
      · exact .inl (e.trans (stored_none fun r e => hi ⟨r, e⟩))
  · obtain ⟨j, hj⟩ := List.mem_iff_getElem?.1 hn
    have hreg : w.reg = failFlags ab.length pb.length := by
      by_cases hr : Bad true ab ∧ w.reg = 0#64 ||| failFlags ab.length pb.length
      · rw [hr.2, BitVec.zero_or]
      · exact absurd hj ((all_did hf hg hb h2 hd hr j (List.getElem?_eq_some_iff.1 hj).1).2 rfl)
    rw [hreg]
    unfold failFlags
    by_cases hp : pb.length = ab.length
    · rw [if_neg (fun x => x hp)]
      refine ⟨by decide +kernel, by decide, ?_⟩
      simp [hp]
    · rw [if_pos hp]
      refine ⟨by decide +kernel, by decide, ?_⟩
      simp [hp]

/-- C104: outside of the debug mode objects that are no records do no harm. -/
theorem C104_others_kept (grid block : Dim3) (hf : Fits grid block) (hg : 0 < volume grid) (hb : 0 < volume block)
    (ab pb : List (Option Rec)) (h : ab.length ≤ pb.length) (reg : BitVec 64) (sched : List (Dim3 × Dim3)) :
    ∃ w, launch grid block false ab pb reg sched = .ok w ∧ w.reg = reg ∧
      (ThreadsEnded grid block w → ∀ i : Nat, ab[i]? = some none → w.ab[i]? = some none) := by
  obtain ⟨w, h1, h2, -, h3, -⟩ := C104_stores_partial grid block hf hg hb false ab pb h (fun x => by cases x) reg sched
  exact ⟨w, h1, h2, fun _ i hi => by rw [h3 i (fun r e => by rw [hi] at e; cases e), hi]⟩

/-- C104: of the kernels for one thread exactly one thread works, whatever the blocks. -/
theorem C104_one_works (grid block : Dim3) (hf : Fits grid block) (hg : 0 < volume grid) (hb : 0 < volume block) :
    ∃ p, (ThreadOf grid block p ∧ works grid block p = true) ∧ ∀ q, ThreadOf grid block q → works grid block q = true → q = p := by
  obtain ⟨p, h1, h2, h3⟩ := (C78_numbering grid block hf).2 0 (Nat.mul_pos hg hb)
  have hw : ∀ q, works grid block q = true ↔ (threadId grid block q.2 q.1).toNat = 0 := by
    intro q
    unfold works
    rw [beq_iff_eq]
    exact ⟨fun e => by rw [e]; rfl, fun e => BitVec.eq_of_toNat_eq e⟩
  exact ⟨p, ⟨h1, (hw p).2 h2⟩, fun q hq e => h3 q hq ((hw q).1 e)⟩

/-! ## Schedules that come to an end -/

/-- one step of a thread of any world leaves the other threads where they are -/
private theorem step_other {debug : Bool} {pb : List (Option Rec)} {n stride : Nat} {p q : Dim3 × Dim3} {w w' : World}
    (h : w.step debug pb n stride p = .ok w') (hq : q ≠ p) : w'.phase q = w.phase q := by
  unfold World.step at h
  have go : ∀ (v : World) (x : Phase), v.phase = w.phase → (v.go p x).phase q = w.phase q :=
    fun v x e => by show (if q = p then x else v.phase q) = _; rw [if_neg hq, e]
  split at h
  · split at h
    · split at h
      · unfold debugTurn at h
        obtain ⟨r, -, h⟩ := Res.bind_eq_ok.1 h
        cases h
        exact go _ _ rfl
      · unfold plainTurn at h
        obtain ⟨r, -, h⟩ := Res.bind_eq_ok.1 h
        cases h
        exact go _ _ rfl
    · cases h
      exact go _ _ rfl
  · cases h
    exact go _ _ rfl
  · cases h
    exact go _ _ rfl
  · cases h
    rfl

/-- steps a thread still has to make, at most -/
private def left (n : Nat) : Phase → Nat
  | .loop i => n - i + 3
  | .leave _ => 2
  | .load _ _ => 1
  | .done => 0

private theorem step_left {debug : Bool} {pb : List (Option Rec)} {n stride : Nat} (hs : 0 < stride) {p : Dim3 × Dim3} {w w' : World}
    (h : w.step debug pb n stride p = .ok w') : left n (w'.phase p) ≤ left n (w.phase p) - 1 := by
  unfold World.step at h
  have go : ∀ (v : World) (x : Phase), (v.go p x).phase p = x := fun v x => if_pos rfl
  split at h
  · rename_i i hi
    rw [hi]
    split at h
    · split at h
      · unfold debugTurn at h
        obtain ⟨r, -, h⟩ := Res.bind_eq_ok.1 h
        cases h
        rw [go]
        split <;> simp only [left] <;> omega
      · unfold plainTurn at h
        obtain ⟨r, -, h⟩ := Res.bind_eq_ok.1 h
        cases h
        rw [go]
        simp only [left]
        omega
    · cases h
      rw [go]
      simp only [left]
      omega
  · rename_i d hi
    rw [hi]
    cases h
    rw [go]
    simp only [left]
    omega
  · rename_i d v hi
    rw [hi]
    cases h
    rw [go]
    simp only [left]
    omega
  · rename_i hi
    cases h
    rw [hi]
    simp only [left]
    omega

/-- C104: a thread that gets as many steps as there are objects, and three more, comes to its end. -/
theorem C104_ends (grid block : Dim3) (hf : Fits grid block) (hg : 0 < volume grid) (hb : 0 < volume block) (debug : Bool)
    (ab pb : List (Option Rec)) (reg : BitVec 64) (sched : List (Dim3 × Dim3)) (w : World)
    (h : launch grid block debug ab pb reg sched = .ok w) (hs : ∀ p, ThreadOf grid block p → ab.length + 3 ≤ sched.count p) :
    ThreadsEnded grid block w := by
  have key : ∀ (p : Dim3 × Dim3) (sched : List (Dim3 × Dim3)) (v : World),
      World.steps debug pb ab.length (totalThreads grid block).toNat sched v = .ok w →
      left ab.length (w.phase p) ≤ left ab.length (v.phase p) - sched.count p := by
    intro p sched
    induction sched with
    | nil => intro v e; cases e; simp
    | cons q ps ih =>
      intro v e
      unfold World.steps at e
      obtain ⟨u, hu, e⟩ := Res.bind_eq_ok.1 e
      have h1 := ih u e
      by_cases hq : q = p
      · subst hq
        have h2 := step_left (by rw [stride_pos hf hg hb]; exact Nat.mul_pos hg hb) hu
        rw [List.count_cons_self]
        omega
      · rw [step_other hu (fun e => hq e.symm)] at h1
        rw [List.count_cons_of_ne hq]
        exact h1
  intro p hp
  have h1 := key p sched _ h
  have h2 := hs p hp
  have h3 : left ab.length (w.phase p) = 0 := by
    have h4 : left ab.length (.loop (threadId grid block p.2 p.1).toNat) ≤ ab.length + 3 := by
      simp only [left]
      omega
    exact Nat.le_zero.1 (Nat.le_trans h1 (Nat.le_of_eq (Nat.sub_eq_zero_of_le (Nat.le_trans h4 h2))))
  cases hw : w.phase p with
  | done => rfl
  | loop i => rw [hw] at h3; simp [left] at h3
  | leave d => rw [hw] at h3; simp [left] at h3
  | load d v => rw [hw] at h3; simp [left] at h3

/-! ## What is not as it should be -/

private def one3 : Dim3 := ⟨1#32, 1#32, 1#32⟩
private theorem one3_fits : Fits one3 one3 := ⟨by decide, by decide⟩
private def soloSched (n : Nat) : List (Dim3 × Dim3) := List.replicate n (⟨0#32, 0#32, 0#32⟩, ⟨0#32, 0#32, 0#32⟩)
private def zeroRec : Rec := ⟨0, fun _ => 0⟩
private def oneRec : Rec := ⟨1, fun _ => 64⟩

/-- C104: the number of objects is that of the buffer of addresses: with more records than sets the kernel reads behind the sets. -/
theorem C104_more_records_violated : ∃ grid block ab pb sched, Fits grid block ∧ (∀ p ∈ sched, ThreadOf grid block p) ∧
    launch grid block false ab pb 0#64 sched = .ub ∧ launch grid block true ab pb 0#64 sched = .ub :=
  ⟨one3, one3, [some zeroRec, some zeroRec], [some oneRec], soloSched 2, one3_fits, by
    intro p hp
    rw [List.eq_of_mem_replicate hp]
    exact ⟨⟨by decide, by decide, by decide⟩, by decide, by decide, by decide⟩, rfl, rfl⟩

/-- C104: with more sets than records the kernel reports success, in both modes, although sets are left out; on the host the same
buffers are refused. -/
theorem C104_fewer_records_violated : ∃ grid block ab pb sched w, Fits grid block ∧ ab.length < pb.length ∧
    launch grid block true ab pb 0#64 sched = .ok w ∧ (∀ p ∈ sched, w.phase p = .done) ∧ DebugReg.evaluate w.reg = .ok 0#32 ∧
    w.ab.length < pb.length ∧ ∃ x, ParticlesAddr.storeAll ab pb = .ok x ∧ x.1 = FAILURE :=
  ⟨one3, one3, [some zeroRec], [some oneRec, some oneRec], soloSched 4, _, one3_fits, by decide, rfl, by
    intro p hp
    rw [List.eq_of_mem_replicate hp]
    rfl, by decide +kernel, by decide, _, rfl, rfl⟩

/-- C104: in the debug mode a record behind an object that is none may not be stored, other than without it. -/
theorem C104_debug_differs_violated : ∃ ab pb sched w w', ab.length = pb.length ∧ none ∈ ab ∧
    launch one3 one3 true ab pb 0#64 sched = .ok w ∧ launch one3 one3 false ab pb 0#64 sched = .ok w' ∧
    (∀ p ∈ sched, w.phase p = .done ∧ w'.phase p = .done) ∧ w.ab[1]? = some (some zeroRec) ∧ w'.ab[1]? = some (some oneRec) :=
  ⟨[none, some zeroRec], [some oneRec, some oneRec], soloSched 5, _, _, rfl, by simp, rfl, rfl, by
    intro p hp
    rw [List.eq_of_mem_replicate hp]
    exact ⟨rfl, rfl⟩, rfl, by rw [← assignFrom_eq zeroRec oneRec]; rfl⟩

/-- Two threads that both fail, the second reading the register before the first writes it. -/
example : ∃ w, launch one3 ⟨2#32, 1#32, 1#32⟩ true [none, none] [none, none] 0#64
    ((List.range 4).flatMap fun _ => [(⟨0#32, 0#32, 0#32⟩, ⟨0#32, 0#32, 0#32⟩), (⟨0#32, 0#32, 0#32⟩, ⟨1#32, 0#32, 0#32⟩)]) = .ok w ∧
    w.reg = 0x1ffffffff#64 := ⟨_, rfl, by decide +kernel⟩

example : Fits one3 ⟨2#32, 1#32, 1#32⟩ ∧ 0 < volume one3 ∧ 0 < volume ⟨2#32, 1#32, 1#32⟩ := by
  refine ⟨⟨?_, ?_⟩, ?_, ?_⟩ <;> decide

end SixTrack
