import Verif.CudaStore
import Verif.ParticlesAddrLemmas

/-!
# Lemmas about the CUDA kernel that stores addresses
-/

namespace SixTrack.CudaStore
open DebugReg ParticlesAddr WorkItems

/-- what a record holds after its set was stored -/
def target (p : Option Rec) : Rec := p.getD ⟨0, fun _ => 0⟩

/-- what object `i` of the addresses becomes when it is stored -/
def storedAt (ab pb : List (Option Rec)) (i : Nat) : Option (Option Rec) :=
  match ab[i]?, pb[i]? with
  | some (some _), some p => some (some (target p))
  | o, _ => o

/-- the flags a thread reports -/
def failFlags (na np : Nat) : BitVec 64 := if np ≠ na then 0x3ffffffff#64 else 0x1ffffffff#64

theorem store_spec (ab pb : List (Option Rec)) (i : Nat) (h : i < ab.length) (hp : i < pb.length) :
    (ab[i]? = some none ∧ store ab pb i = .ok (FAILURE, ab)) ∨
      (ab[i]? ≠ some none ∧ ∃ ab', store ab pb i = .ok (SUCCESS, ab') ∧ ab'.length = ab.length ∧
        ab'[i]? = storedAt ab pb i ∧ ∀ j, j ≠ i → ab'[j]? = ab[j]?) := by
  unfold store storedAt
  rw [List.getElem?_eq_getElem h, List.getElem?_eq_getElem hp]
  cases ab[i] with
  | none => exact .inl ⟨rfl, rfl⟩
  | some r =>
    refine .inr ⟨by simp, ?_⟩
    cases pb[i] with
    | none =>
      refine ⟨_, rfl, by simp, ?_, fun j hj => by rw [List.getElem?_set_ne (fun h => hj h.symm)]⟩
      rw [List.getElem?_set_self h, preset_eq]
      rfl
    | some p =>
      refine ⟨_, rfl, by simp, ?_, fun j hj => by rw [List.getElem?_set_ne (fun h => hj h.symm)]⟩
      rw [List.getElem?_set_self h, assignFrom_eq]
      rfl

theorem storeDebug_ok {ab pb ab' : List (Option Rec)} {i : Nat} (h : store ab pb i = .ok (SUCCESS, ab')) :
    storeDebug ab pb i = .ok (0#64, ab') := by
  unfold storeDebug
  rw [h, Res.ok_bind]
  simp only [ne_eq, not_true_eq_false, false_and, if_false]
  rfl

theorem storeDebug_fail {ab pb : List (Option Rec)} {i : Nat} (h : store ab pb i = .ok (FAILURE, ab)) (hi : i < ab.length)
    (hp : i < pb.length) : storeDebug ab pb i = .ok (failFlags ab.length pb.length, ab) := by
  unfold storeDebug failFlags
  have h1 : ¬ pb.length = 0 := by omega
  have h2 : ¬ ab.length ≤ i := by omega
  have h3 : FAILURE ≠ SUCCESS := by decide
  rw [h, Res.ok_bind]
  simp only [h1, h2, h3, ne_eq, not_false_eq_true, true_and, and_false, if_false, if_true]
  by_cases h4 : pb.length = ab.length
  · simp only [h4, not_true_eq_false, if_false]
    have e : storeStatus (raiseNext 0#64) (BitVec.ofInt 32 FAILURE) = .ok 0x1ffffffff#64 := by decide +kernel
    rw [e]
    rfl
  · simp only [h4, not_false_eq_true, if_true]
    have e : storeStatus (raiseNext (raiseNext 0#64)) (BitVec.ofInt 32 FAILURE) = .ok 0x3ffffffff#64 := by decide +kernel
    rw [e]
    rfl

theorem failFlags_ne (a b : Nat) : failFlags a b ≠ 0#64 := by
  unfold failFlags
  split <;> decide

/-- object `i` has been stored, and a failure would have been noticed -/
def Did (debug : Bool) (ab pb : List (Option Rec)) (w : World) (i : Nat) : Prop :=
  w.ab[i]? = storedAt ab pb i ∧ (debug = true → ab[i]? ≠ some none)

/-- there is something to report -/
def Bad (debug : Bool) (ab : List (Option Rec)) : Prop := debug = true ∧ ∃ i : Nat, ab[i]? = some none

/-- what holds of a thread whose first index is `s` -/
def PhaseOk (debug : Bool) (ab pb : List (Option Rec)) (reg : BitVec 64) (stride s : Nat) (w : World) : Phase → Prop
  | .loop i => (∃ m, i = s + m * stride) ∧ ∀ m, s + m * stride < i → s + m * stride < ab.length → Did debug ab pb w (s + m * stride)
  | .leave d => Bad debug ab ∧ d = failFlags ab.length pb.length
  | .load d v => Bad debug ab ∧ d = failFlags ab.length pb.length ∧ (v = reg ∨ v = reg ||| d)
  | .done => (∀ m, s + m * stride < ab.length → Did debug ab pb w (s + m * stride)) ∨
      (Bad debug ab ∧ w.reg = reg ||| failFlags ab.length pb.length)

structure Good (debug : Bool) (ab pb : List (Option Rec)) (reg : BitVec 64) (stride : Nat) (start : Dim3 × Dim3 → Nat) (w : World) :
    Prop where
  len : w.ab.length = ab.length
  each : ∀ i, w.ab[i]? = ab[i]? ∨ w.ab[i]? = storedAt ab pb i
  reg_or : w.reg = reg ∨ (Bad debug ab ∧ w.reg = reg ||| failFlags ab.length pb.length)
  threads : ∀ p, PhaseOk debug ab pb reg stride (start p) w (w.phase p)

/-- a world with the same or more stored objects and the same register or that with the flags keeps what holds of a thread -/
theorem PhaseOk.mono {debug : Bool} {ab pb : List (Option Rec)} {reg : BitVec 64} {stride s : Nat} {w w' : World} {q : Phase}
    (h : PhaseOk debug ab pb reg stride s w q) (hd : ∀ i, Did debug ab pb w i → Did debug ab pb w' i)
    (hr : w'.reg = w.reg ∨ w'.reg = reg ||| failFlags ab.length pb.length) : PhaseOk debug ab pb reg stride s w' q := by
  cases q with
  | loop i => exact ⟨h.1, fun m h1 h2 => hd _ (h.2 m h1 h2)⟩
  | leave d => exact h
  | load d v => exact h
  | done =>
    rcases h with h | ⟨h1, h2⟩
    · exact .inl fun m h1 => hd _ (h m h1)
    · refine .inr ⟨h1, ?_⟩
      rcases hr with hr | hr
      · rw [hr, h2]
      · exact hr

theorem Good.go {debug : Bool} {ab pb : List (Option Rec)} {reg : BitVec 64} {stride : Nat} {start : Dim3 × Dim3 → Nat} {w w' : World}
    (h : Good debug ab pb reg stride start w) (p : Dim3 × Dim3) (q : Phase) (hph : w'.phase = w.phase)
    (hlen : w'.ab.length = ab.length) (heach : ∀ i, w'.ab[i]? = ab[i]? ∨ w'.ab[i]? = storedAt ab pb i)
    (hreg : w'.reg = w.reg ∨ (Bad debug ab ∧ w'.reg = reg ||| failFlags ab.length pb.length))
    (hd : ∀ i, Did debug ab pb w i → Did debug ab pb w' i) (hq : PhaseOk debug ab pb reg stride (start p) w' q) :
    Good debug ab pb reg stride start (w'.go p q) := by
  have hsame : ∀ (s : Nat) (x : Phase), PhaseOk debug ab pb reg stride s w' x → PhaseOk debug ab pb reg stride s (w'.go p q) x :=
    fun s x hx => hx.mono (fun _ h => h) (.inl rfl)
  refine ⟨hlen, heach, ?_, fun x => ?_⟩
  · rcases hreg with e | e
    · rcases h.reg_or with f | f
      · exact .inl (e.trans f)
      · exact .inr ⟨f.1, e.trans f.2⟩
    · exact .inr e
  · show PhaseOk _ _ _ _ _ _ _ (if x = p then q else w'.phase x)
    by_cases hx : x = p
    · rw [if_pos hx, hx]
      exact hsame _ _ hq
    · rw [if_neg hx, hph]
      exact hsame _ _ ((h.threads x).mono hd (hreg.imp id And.right))

theorem stored_again {ab pb ab' : List (Option Rec)} {i : Nat} (h : ab'[i]? = ab[i]? ∨ ab'[i]? = storedAt ab pb i) :
    (ab'[i]? = some none ↔ ab[i]? = some none) ∧ storedAt ab' pb i = storedAt ab pb i := by
  rcases h with h | h
  · unfold storedAt
    rw [h]
    exact ⟨Iff.rfl, rfl⟩
  · unfold storedAt at h ⊢
    rw [h]
    rcases ab[i]? with _ | _ | r <;> rcases pb[i]? with _ | p <;> simp

/-- every step of a thread keeps all this, and none is undefined -/
theorem Good.step {debug : Bool} {ab pb : List (Option Rec)} {reg : BitVec 64} {stride : Nat} {start : Dim3 × Dim3 → Nat} {w : World}
    (h : Good debug ab pb reg stride start w) (hl : ab.length ≤ pb.length) (hs : 0 < stride) (p : Dim3 × Dim3) :
    ∃ w', w.step debug pb ab.length stride p = .ok w' ∧ Good debug ab pb reg stride start w' := by
  have hp := h.threads p
  unfold World.step
  split
  · rename_i i hi
    rw [hi] at hp
    obtain ⟨⟨m0, hm0⟩, hp⟩ := hp
    by_cases hin : i < ab.length
    · rw [if_pos hin]
      have hnext : ∀ w' : World, (∀ j, Did debug ab pb w j → Did debug ab pb w' j) → Did debug ab pb w' i →
          PhaseOk debug ab pb reg stride (start p) w' (.loop (i + stride)) := by
        intro w' h1 h2
        refine ⟨⟨m0 + 1, by rw [hm0, Nat.succ_mul]; omega⟩, fun m h3 h4 => ?_⟩
        by_cases hlt : start p + m * stride < i
        · exact h1 _ (hp m hlt h4)
        · have hmm : m = m0 := by
            have h5 : m0 * stride ≤ m * stride := by omega
            have h6 : m * stride < (m0 + 1) * stride := by rw [Nat.succ_mul]; omega
            have h7 := Nat.le_of_mul_le_mul_right h5 hs
            have h8 := Nat.lt_of_mul_lt_mul_right h6
            omega
          rw [hmm, ← hm0]
          exact h2
      have hsame := stored_again (h.each i)
      rcases store_spec w.ab pb i (by rw [h.len]; exact hin) (by omega) with ⟨hn, hst⟩ | ⟨hn, ab', hst, hlen, hi', hother⟩
      · have hn0 := hsame.1.1 hn
        cases debug with
        | true =>
          rw [if_pos rfl]
          unfold debugTurn
          rw [storeDebug_fail hst (by rw [h.len]; exact hin) (by omega), Res.ok_bind, h.len]
          simp only [ne_eq, failFlags_ne, not_false_eq_true, if_true]
          exact ⟨_, rfl, h.go p _ rfl h.len h.each (.inl rfl) (fun _ x => x) ⟨⟨rfl, i, hn0⟩, rfl⟩⟩
        | false =>
          rw [if_neg (by decide)]
          unfold plainTurn
          rw [hst, Res.ok_bind]
          refine ⟨_, rfl, h.go p _ rfl h.len h.each (.inl rfl) (fun _ x => x) (hnext _ (fun _ x => x) ⟨?_, fun x => by cases x⟩)⟩
          show w.ab[i]? = _
          rw [hn]
          unfold storedAt
          rw [hn0]
      · have hn0 : ab[i]? ≠ some none := fun e => hn (hsame.1.2 e)
        have heach : ∀ j, ab'[j]? = ab[j]? ∨ ab'[j]? = storedAt ab pb j := by
          intro j
          by_cases hj : j = i
          · rw [hj, hi', hsame.2]
            exact .inr rfl
          · rw [hother j hj]
            exact h.each j
        have hdi : Did debug ab pb { w with ab := ab' } i := ⟨hi'.trans hsame.2, fun _ => hn0⟩
        have hd : ∀ j, Did debug ab pb w j → Did debug ab pb { w with ab := ab' } j := by
          intro j hj
          by_cases e : j = i
          · rw [e]
            exact hdi
          · exact ⟨(hother j e).trans hj.1, hj.2⟩
        have hgo : Good debug ab pb reg stride start (({ w with ab := ab' } : World).go p (.loop (i + stride))) :=
          h.go p _ rfl (hlen.trans h.len) heach (.inl rfl) hd (hnext _ hd hdi)
        cases debug with
        | true =>
          rw [if_pos rfl]
          unfold debugTurn
          rw [storeDebug_ok hst, Res.ok_bind]
          simp only [ne_eq, not_true_eq_false, if_false]
          exact ⟨_, rfl, hgo⟩
        | false =>
          rw [if_neg (by decide)]
          unfold plainTurn
          rw [hst, Res.ok_bind]
          exact ⟨_, rfl, hgo⟩
    · rw [if_neg hin]
      exact ⟨_, rfl, h.go p _ rfl h.len h.each (.inl rfl) (fun _ x => x) (.inl fun m hm => hp m (by omega) hm)⟩
  · rename_i d hi
    rw [hi] at hp
    refine ⟨_, rfl, h.go p _ rfl h.len h.each (.inl rfl) (fun _ x => x) ⟨hp.1, hp.2, ?_⟩⟩
    rcases h.reg_or with e | e
    · exact .inl e
    · exact .inr (by rw [e.2, hp.2])
  · rename_i d v hi
    rw [hi] at hp
    have hv : v ||| d = reg ||| failFlags ab.length pb.length := by
      rw [hp.2.1]
      rcases hp.2.2 with e | e
      · rw [e]
      · rw [e, hp.2.1, BitVec.or_assoc, BitVec.or_self]
    exact ⟨_, rfl, h.go p _ rfl h.len h.each (.inr ⟨hp.1, hv⟩) (fun _ x => x) (.inr ⟨hp.1, hv⟩)⟩
  · exact ⟨_, rfl, h⟩

theorem Good.steps {debug : Bool} {ab pb : List (Option Rec)} {reg : BitVec 64} {stride : Nat} {start : Dim3 × Dim3 → Nat}
    (hl : ab.length ≤ pb.length) (hs : 0 < stride) : ∀ (sched : List (Dim3 × Dim3)) (w : World), Good debug ab pb reg stride start w →
      ∃ w', World.steps debug pb ab.length stride sched w = .ok w' ∧ Good debug ab pb reg stride start w'
  | [], w, h => ⟨w, rfl, h⟩
  | p :: ps, w, h => by
    obtain ⟨w1, h1, h2⟩ := h.step hl hs p
    obtain ⟨w2, h3, h4⟩ := Good.steps hl hs ps w1 h2
    exact ⟨w2, by unfold World.steps; rw [h1, Res.ok_bind, h3], h4⟩

theorem Good.init (debug : Bool) (ab pb : List (Option Rec)) (reg : BitVec 64) (stride : Nat) (start : Dim3 × Dim3 → Nat) :
    Good debug ab pb reg stride start ⟨ab, reg, fun p => .loop (start p)⟩ :=
  ⟨rfl, fun _ => .inl rfl, .inl rfl, fun p => ⟨⟨0, by simp⟩, fun m h => by omega⟩⟩

end SixTrack.CudaStore
