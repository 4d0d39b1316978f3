import Verif.TrackDebugLemmas
import Verif.Props.JobTrack
import Verif.Props.DebugReg

/-!
# C77: the debug kernels for tracking
-/

namespace SixTrack
open Track EBE JobTrack DebugReg

variable {E C R : Type}

/-- Legal arguments: no null pointers, a positive slot size, a particle and a stride that make sense. -/
structure Legal (a : Args) : Prop where
  particles : a.pNull = false
  elements : a.eNull = false
  slot : 0 < a.slot
  pidx : 0 ≤ a.pidx
  stride : 0 < a.stride

/-- Both buffers hold the addresses of the place where they are. -/
def InPlace (a : Args) : Prop := a.pRemap = false ∧ a.eRemap = false

/-- The register says: status `st`, and, of the error flags, those with `errs`. -/
def Reports (reg : BitVec 64) (st : Status) (errs : Nat → Prop) : Prop :=
  getStatus reg = .ok st ∧ ∀ k, k < 32 → (reg.getLsbD (32 + k) = true ↔ errs k)

/-- If the plain kernel ends, the debug kernel ends with the same status and memory; the register holds the
status and no error flag, and it is empty exactly for success.  The smallest status cannot be stored,
see `C16_min_status_violated`. -/
def Reported (plain : Res (Status × JobTrack.Mem C R))
    (debug : Res (Status × BitVec 64 × JobTrack.Mem C R)) : Prop :=
  ∀ st m', plain = .ok (st, m') → st.toInt ≠ -2 ^ 31 →
    ∃ reg, debug = .ok (st, reg, m') ∧ Reports reg st (fun _ => False) ∧ (reg = 0#64 ↔ st = 0#32)

namespace JobTrack

theorem _root_.SixTrack.Legal.ok {a : Args} (h : Legal a) : a.ok = true := by
  obtain ⟨h1, h2, h3, h4, h5⟩ := h
  simp [Args.ok, h1, h2, h3, h4, h5]

theorem legal_iff {a : Args} : Legal a ↔ a.ok = true := by
  refine ⟨Legal.ok, fun h => ?_⟩
  simp only [Args.ok, Bool.and_eq_true, Bool.not_eq_true', decide_eq_true_eq] at h
  exact ⟨h.1.1.1.1, h.1.1.1.2, h.1.1.2, h.1.2, h.2⟩

theorem ne_min {s : Status} (h : s.toInt ≠ -2 ^ 31) : s ≠ 0x80000000#32 := by
  rintro rfl; exact h (by decide)

theorem put_reports {s : Status} (hs : s ≠ 0x80000000#32) (flags : BitVec 64) :
    Reports (put flags s) s (fun k => flags.getLsbD (32 + k) = true) := by
  refine ⟨getStatus_put hs flags, fun k _ => ?_⟩
  rw [put_bit, if_neg (by omega)]

theorem put_zero_eq {s : Status} (hs : s ≠ 0x80000000#32) : put 0 s = 0#64 ↔ s = 0#32 := by
  constructor
  · intro h
    have := getStatus_put hs 0
    rw [h] at this
    exact (Res.ok_inj _ _).1 (this.symm.trans (by decide : getStatus 0#64 = .ok 0#32))
  · rintro rfl; decide

theorem reported_of {plain : Res (Status × Mem C R)} {debug : Res (Status × BitVec 64 × Mem C R)}
    (h : debug = plain.bind (finish 0)) : Reported plain debug := by
  intro st m' hp hs
  have hs' := ne_min hs
  refine ⟨put 0 st, ?_, ⟨(put_reports hs' 0).1, fun k _ => ?_⟩, put_zero_eq hs'⟩
  · rw [h, hp]
    exact finish_zero hs'
  · rw [put_bit, if_neg (by omega)]; simp

theorem debugTurns_eq {f : One C R} {a : Args} (hp : InPlace a) {n : Int} (hn : 0 ≤ n) {m : Mem C R}
    (hs : ∃ ps, m.objs[a.set]? = some (some ps)) :
    debugTurns f a n m = (kernelOn f m a.set a.pidx a.stride).bind (finish 0) := by
  obtain ⟨ps, hps⟩ := hs
  rw [kernelOn_set hps]
  have h1 : particlesOf a m = .ok (some ps) := by
    unfold particlesOf
    rw [hp.1, hps]; rfl
  unfold debugTurns
  rw [h1, hp.2]
  simp only [Res.ok_bind, if_pos hn]
  rfl

theorem untilDebug_eq (S : Sem E C R) (lat : List E) {a : Args} (ha : Legal a) (hp : InPlace a) {n : Int}
    (hn : 0 ≤ n) {m : Mem C R} (hs : ∃ ps, m.objs[a.set]? = some (some ps)) :
    untilDebug S lat n a m = (kernelOn (untilOne S lat n) m a.set a.pidx a.stride).bind (finish 0) := by
  unfold untilDebug
  rw [ha.ok, if_pos rfl, debugTurns_eq hp hn hs]

theorem ebeDebug_eq (S : Sem E C R) (lat : List E) {cfgs : List (Option Cfg)} {ci : Nat} {c : Option Cfg}
    (hc : configAt cfgs ci = .ok c) (nn : Int) {a : Args} (ha : Legal a)
    (hp : InPlace a) {n : Int} (hn : 0 ≤ n) {m : Mem C R} (hs : ∃ ps, m.objs[a.set]? = some (some ps)) :
    ebeDebug S lat false cfgs ci nn n a m =
      (kernelOn (ebeOne S c nn lat n) m a.set a.pidx a.stride).bind (finish 0) := by
  unfold ebeDebug
  rw [ha.ok, hc]
  simp only [Bool.not_false, Bool.and_self, if_true, Res.ok_bind]
  exact debugTurns_eq hp hn hs

theorem lineDebug_eq (S : Sem E C R) (lat : List E) {b e : Nat} (hb : b ≤ e) (he : e ≤ lat.length)
    (fin : Bool) {a : Args} (ha : Legal a) (hp : InPlace a) {m : Mem C R}
    (hs : ∃ ps, m.objs[a.set]? = some (some ps)) :
    lineDebug S lat b e fin a m =
      (kernelOn (lineOne S ((lat.drop b).take (e - b)) fin) m a.set a.pidx a.stride).bind (finish 0) := by
  obtain ⟨ps, hps⟩ := hs
  rw [kernelOn_set hps]
  have h1 : particlesOf a m = .ok (some ps) := by
    unfold particlesOf
    rw [hp.1, hps]; rfl
  unfold lineDebug
  rw [ha.ok, if_pos rfl, h1]
  simp only [Res.ok_bind]
  unfold debugLine lineOf
  rw [if_pos ⟨hp.2, rfl, hb, Nat.le_trans hb he⟩, if_pos ⟨hb, he⟩]
  rfl

theorem failed_ne : failed ≠ 0x80000000#32 := by decide

theorem refused_of {flags : BitVec 64} (hf : ∀ i < 32, flags.getLsbD i = false) {errs : Nat → Prop}
    (he : ∀ k, k < 32 → (flags.getLsbD (32 + k) = true ↔ errs k)) (m : Mem C R) :
    ∃ reg, finish flags (failed, m) = .ok (failed, reg, m) ∧ Reports reg failed errs :=
  ⟨put flags failed, finish_eq hf failed_ne, (put_reports failed_ne flags).1, fun k hk =>
    ((put_reports failed_ne flags).2 k hk).trans (he k hk)⟩

end JobTrack

/-- C77: with legal arguments the debug kernel for tracking over turns does what the plain kernel does, and
the register tells the status. -/
theorem C77_until (S : Sem E C R) (lat : List E) (n : Int) (hn : 0 ≤ n) (a : Args) (ha : Legal a)
    (hp : InPlace a) (m : JobTrack.Mem C R) (hs : ∃ ps, m.objs[a.set]? = some (some ps)) :
    Reported (untilKernel S lat n m a.set a.pidx a.stride) (untilDebug S lat n a m) :=
  reported_of (untilDebug_eq S lat ha hp hn hs)

/-- C77: the same for element-by-element tracking. -/
theorem C77_elem_by_elem (S : Sem E C R) (lat : List E) (cfgs : List (Option Cfg)) (ci : Nat) (nn n : Int)
    (hn : 0 ≤ n) (a : Args) (ha : Legal a) (hp : InPlace a) (m : JobTrack.Mem C R)
    (hs : ∃ ps, m.objs[a.set]? = some (some ps)) :
    Reported (ebeKernel S lat cfgs ci nn n m a.set a.pidx a.stride)
      (ebeDebug S lat false cfgs ci nn n a m) := by
  cases hc : configAt cfgs ci with
  | ub =>
    intro st m' h
    unfold ebeKernel at h
    rw [hc] at h; cases h
  | ok c =>
    have h := ebeDebug_eq S lat hc nn ha hp hn hs
    have h2 : ebeKernel S lat cfgs ci nn n m a.set a.pidx a.stride =
        kernelOn (ebeOne S c nn lat n) m a.set a.pidx a.stride := by
      unfold ebeKernel; rw [hc]; rfl
    rw [h2]
    exact reported_of h

/-- C77: the same for a part of the lattice. -/
theorem C77_line (S : Sem E C R) (lat : List E) (b e : Nat) (hb : b ≤ e) (he : e ≤ lat.length)
    (fin : Bool) (a : Args) (ha : Legal a) (hp : InPlace a) (m : JobTrack.Mem C R)
    (hs : ∃ ps, m.objs[a.set]? = some (some ps)) :
    Reported (lineKernel S lat b e fin m a.set a.pidx a.stride) (lineDebug S lat b e fin a m) := by
  have h2 : lineKernel S lat b e fin m a.set a.pidx a.stride =
      kernelOn (lineOne S ((lat.drop b).take (e - b)) fin) m a.set a.pidx a.stride := by
    unfold lineKernel lineOf; rw [if_pos ⟨hb, he⟩]; rfl
  rw [h2]
  exact reported_of (lineDebug_eq S lat hb he fin ha hp hs)

/-- The error flags for arguments that are not legal. -/
def argErrors (a : Args) (cNull : Bool) (k : Nat) : Prop :=
  (k = 0 ∧ (a.pidx < 0 ∨ a.stride ≤ 0)) ∨ (k = 1 ∧ a.pNull = true) ∨ (k = 2 ∧ a.eNull = true) ∨
    (k = 3 ∧ a.slot = 0) ∨ (k = 9 ∧ cNull = true)

/-- C77: arguments that are not legal are refused: nothing is touched, the status is failure, and the
register names exactly what is wrong. -/
theorem C77_refused (S : Sem E C R) (lat : List E) (n : Int) (b e : Nat) (fin : Bool)
    (cfgs : List (Option Cfg)) (ci : Nat) (nn : Int) (a : Args) (m : JobTrack.Mem C R) :
    (¬ Legal a → ∃ reg, untilDebug S lat n a m = .ok (failed, reg, m) ∧
      lineDebug S lat b e fin a m = .ok (failed, reg, m) ∧ Reports reg failed (argErrors a false)) ∧
    ∀ cNull, ¬ Legal a ∨ cNull = true →
      ∃ reg, ebeDebug S lat cNull cfgs ci nn n a m = .ok (failed, reg, m) ∧
        Reports reg failed (argErrors a cNull) := by
  have hbits : ∀ cNull i, (a.flags ||| flag cNull 9).getLsbD i = true ↔
      (i = 33 ∧ a.pNull = true) ∨ (i = 34 ∧ a.eNull = true) ∨ (i = 35 ∧ a.slot = 0) ∨
        (i = 32 ∧ (a.pidx < 0 ∨ a.stride ≤ 0)) ∨ (i = 41 ∧ cNull = true) := by
    intro cNull i
    unfold Args.flags
    simp only [BitVec.getLsbD_or, flag_bit _ 1 _ (by decide), flag_bit _ 2 _ (by decide),
      flag_bit _ 3 _ (by decide), flag_bit _ 0 _ (by decide), flag_bit _ 9 _ (by decide),
      Bool.or_eq_true, Bool.and_eq_true, decide_eq_true_eq]
    constructor
    · rintro (((((h | h) | h) | h) | h) | h)
      · exact Or.inl ⟨h.2, h.1⟩
      · exact Or.inr (Or.inl ⟨h.2, h.1⟩)
      · exact Or.inr (Or.inr (Or.inl ⟨h.2, h.1⟩))
      · exact Or.inr (Or.inr (Or.inr (Or.inl ⟨h.2, Or.inl h.1⟩)))
      · exact Or.inr (Or.inr (Or.inr (Or.inl ⟨h.2, Or.inr h.1⟩)))
      · exact Or.inr (Or.inr (Or.inr (Or.inr ⟨h.2, h.1⟩)))
    · rintro (h | h | h | ⟨h, h' | h'⟩ | h)
      · exact Or.inl (Or.inl (Or.inl (Or.inl (Or.inl ⟨h.2, h.1⟩))))
      · exact Or.inl (Or.inl (Or.inl (Or.inl (Or.inr ⟨h.2, h.1⟩))))
      · exact Or.inl (Or.inl (Or.inl (Or.inr ⟨h.2, h.1⟩)))
      · exact Or.inl (Or.inl (Or.inr ⟨h', h⟩))
      · exact Or.inl (Or.inr ⟨h', h⟩)
      · exact Or.inr ⟨h.2, h.1⟩
  have hlow : ∀ cNull, ∀ i < 32, (a.flags ||| flag cNull 9).getLsbD i = false := by
    intro cNull i hi
    cases h : (a.flags ||| flag cNull 9).getLsbD i with
    | false => rfl
    | true => rw [hbits] at h; omega
  have herr : ∀ cNull, ∀ k, k < 32 →
      ((a.flags ||| flag cNull 9).getLsbD (32 + k) = true ↔ argErrors a cNull k) := by
    intro cNull k hk
    rw [hbits]
    unfold argErrors
    have e1 : 32 + k = 33 ↔ k = 1 := by omega
    have e2 : 32 + k = 34 ↔ k = 2 := by omega
    have e3 : 32 + k = 35 ↔ k = 3 := by omega
    have e4 : 32 + k = 32 ↔ k = 0 := by omega
    have e5 : 32 + k = 41 ↔ k = 9 := by omega
    rw [e1, e2, e3, e4, e5]
    constructor
    · rintro (h | h | h | h | h)
      · exact Or.inr (Or.inl h)
      · exact Or.inr (Or.inr (Or.inl h))
      · exact Or.inr (Or.inr (Or.inr (Or.inl h)))
      · exact Or.inl h
      · exact Or.inr (Or.inr (Or.inr (Or.inr h)))
    · rintro (h | h | h | h | h)
      · exact Or.inr (Or.inr (Or.inr (Or.inl h)))
      · exact Or.inl h
      · exact Or.inr (Or.inl h)
      · exact Or.inr (Or.inr (Or.inl h))
      · exact Or.inr (Or.inr (Or.inr (Or.inr h)))
  have hnot : ¬ Legal a → a.ok = false := fun h => by
    rw [legal_iff] at h
    exact Bool.not_eq_true _ ▸ h
  constructor
  · intro h
    obtain ⟨reg, h1, h2⟩ := refused_of (hlow false) (herr false) m
    have h0 : a.flags ||| flag false 9 = a.flags := by simp [flag]
    rw [h0] at h1
    refine ⟨reg, ?_, ?_, h2⟩
    · unfold untilDebug; rw [hnot h]; exact h1
    · unfold lineDebug; rw [hnot h]; exact h1
  · intro cNull h
    obtain ⟨reg, h1, h2⟩ := refused_of (hlow cNull) (herr cNull) m
    refine ⟨reg, ?_, h2⟩
    have h3 : (a.ok && !cNull) = false := by
      rcases h with h | h
      · rw [hnot h]; rfl
      · rw [h]; simp
    unfold ebeDebug
    rw [h3]; exact h1

/-- C77: a negative number of turns, and an object that is not a particle set. -/
theorem C77_turns_refused (S : Sem E C R) (lat : List E) (n : Int) (a : Args) (ha : Legal a)
    (hp : InPlace a) (m : JobTrack.Mem C R) (o : Option (List (Part C))) (ho : m.objs[a.set]? = some o)
    (h : n < 0 ∨ o = none) :
    ∃ reg, untilDebug S lat n a m = .ok (failed, reg, m) ∧
      Reports reg failed (fun k => (k = 4 ∧ o = none) ∨ (k = 8 ∧ n < 0)) := by
  have h1 : particlesOf a m = .ok o := by
    unfold particlesOf
    rw [hp.1, ho]; rfl
  have hbits : ∀ i, (flag o.isNone 4 ||| flag (decide (n < 0)) 8).getLsbD i = true ↔
      (i = 36 ∧ o = none) ∨ (i = 40 ∧ n < 0) := by
    intro i
    simp only [BitVec.getLsbD_or, flag_bit _ 4 _ (by decide), flag_bit _ 8 _ (by decide),
      Bool.or_eq_true, Bool.and_eq_true, decide_eq_true_eq, Option.isNone_iff_eq_none]
    rw [and_comm, and_comm (a := n < 0)]
  have hlow : ∀ i < 32, (flag o.isNone 4 ||| flag (decide (n < 0)) 8).getLsbD i = false := by
    intro i hi
    cases h : (flag o.isNone 4 ||| flag (decide (n < 0)) 8).getLsbD i with
    | false => rfl
    | true => rw [hbits] at h; omega
  obtain ⟨reg, h2, h3⟩ := refused_of hlow (errs := fun k => (k = 4 ∧ o = none) ∨ (k = 8 ∧ n < 0))
    (fun k hk => by
      rw [hbits]
      have e1 : 32 + k = 36 ↔ k = 4 := by omega
      have e2 : 32 + k = 40 ↔ k = 8 := by omega
      rw [e1, e2]) m
  refine ⟨reg, ?_, h3⟩
  rw [← h2]
  unfold untilDebug debugTurns
  rw [ha.ok, if_pos rfl, h1, hp.2]
  simp only [Res.ok_bind]
  cases o with
  | none => simp
  | some ps =>
    have hn : n < 0 := by simpa using h
    simp [show ¬ 0 ≤ n by omega, hn, flag]

/-- C77: boundaries of a line in the wrong order, a begin after the last element, and an object that is
not a particle set. -/
theorem C77_line_refused (S : Sem E C R) (lat : List E) (b e : Nat) (fin : Bool) (a : Args)
    (ha : Legal a) (hp : InPlace a) (m : JobTrack.Mem C R) (o : Option (List (Part C)))
    (ho : m.objs[a.set]? = some o) (h : e < b ∨ lat.length < b ∨ o = none) :
    ∃ reg, lineDebug S lat b e fin a m = .ok (failed, reg, m) ∧
      Reports reg failed (fun k => (k = 4 ∧ o = none) ∨ (k = 7 ∧ (e < b ∨ lat.length < e))) := by
  have h1 : particlesOf a m = .ok o := by
    unfold particlesOf
    rw [hp.1, ho]; rfl
  have hbits : ∀ i, (flag false 6 ||| flag o.isNone 4 |||
      flag (decide (e < b ∨ lat.length < e)) 7).getLsbD i = true ↔
      (i = 36 ∧ o = none) ∨ (i = 39 ∧ (e < b ∨ lat.length < e)) := by
    intro i
    simp only [BitVec.getLsbD_or, flag_bit _ 4 _ (by decide), flag_bit _ 6 _ (by decide),
      flag_bit _ 7 _ (by decide), Bool.or_eq_true, Bool.and_eq_true, decide_eq_true_eq,
      Option.isNone_iff_eq_none, Bool.false_and, Bool.false_or]
    rw [and_comm, and_comm (a := e < b ∨ lat.length < e)]
  have hlow : ∀ i < 32, (flag false 6 ||| flag o.isNone 4 |||
      flag (decide (e < b ∨ lat.length < e)) 7).getLsbD i = false := by
    intro i hi
    rw [← Bool.not_eq_true, hbits]
    omega
  obtain ⟨reg, h2, h3⟩ := refused_of hlow
    (errs := fun k => (k = 4 ∧ o = none) ∨ (k = 7 ∧ (e < b ∨ lat.length < e)))
    (fun k hk => by
      rw [hbits]
      have e1 : 32 + k = 36 ↔ k = 4 := by omega
      have e2 : 32 + k = 39 ↔ k = 7 := by omega
      rw [e1, e2]) m
  refine ⟨reg, ?_, h3⟩
  rw [← h2]
  unfold lineDebug
  rw [ha.ok, if_pos rfl, h1]
  simp only [Res.ok_bind]
  unfold debugLine
  rw [if_neg, if_neg, hp.2]
  · rw [hp.2]; simp
  · rintro ⟨-, h4, h5, h6⟩
    rcases h with h | h | h
    · omega
    · omega
    · rw [h] at h4; cases h4

/-! ## Launches -/

/-- C77: the work-items of a launch of the debug kernel, in any order, one after another: every particle
of the set is tracked once, and the collected register tells the status of the whole.  That nothing
changes if work-items run at the same time is not shown here. -/
theorem C77_launch_partial (S : Sem E C R) (lat : List E) (hS : Status32 S lat)
    (hmin : ∀ e ∈ lat, ∀ p, (S.dispatch e p).status ≠ -2 ^ 31) (n : Nat)
    (a : Args) (ha : Legal a) (hp : InPlace a) (N : Nat) (hN : 0 < N) (ks : List Nat)
    (hk : ks.Perm (List.range N)) (m : JobTrack.Mem C R) (hs : ∃ ps, m.objs[a.set]? = some (some ps)) :
    ∃ reg st m', items (fun k m => untilDebug S lat n (a.item N k) m) ks 0 m = .ok (reg, m') ∧
      Tracked (trackUntil S lat n) [a.set] m st m' ∧ Reports reg st (fun _ => False) ∧
      (reg = 0#64 ↔ st = 0#32) ∧
      ∀ (I : Int → Prop) (owner : Nat → Int), Owns S lat I owner → Apart I [a.set] m →
        Recorded (trackUntil S lat n) owner [a.set] m m' := by
  obtain ⟨g, ws, hF⟩ := exists_split (trackUntil_pure S lat (n : Int))
  have hmem : ∀ j, j % N ∈ ks := fun j => hk.mem_iff.2 (List.mem_range.2 (Nat.mod_lt j hN))
  have hm : ∀ p : Part C, BitVec.ofInt 32 (g p).1 ≠ 0x80000000#32 := by
    intro p h
    have hb : -2 ^ 31 < (g p).1 ∧ (g p).1 < 2 ^ 31 := by
      rcases hF.status p with h' | h' | ⟨e, he, q, h'⟩
      · rw [h']; decide
      · rw [h']; decide
      · have h1 := hS e he q
        have h2 := hmin e he q
        omega
    have := congrArg BitVec.toInt h
    rw [BitVec.toInt_ofInt, Int.bmod_eq_of_le (by omega) (by omega)] at this
    have h3 : (0x80000000#32).toInt = -2 ^ 31 := by decide
    omega
  obtain ⟨st, m', h1, h2⟩ := items_whole (untilOne_acts hF) (fun p _ => hm p) (set := a.set) (n := N)
    (K := fun k m => untilDebug S lat n (a.item N k) m)
    (fun k hk' m hs => untilDebug_eq (a := a.item N k) S lat
      ⟨ha.particles, ha.elements, ha.slot, by simp [Args.item], by simp [Args.item]; omega⟩ hp (by omega) hs)
    ks 0 m (hk.nodup_iff.2 List.nodup_range) (fun k hk' => List.mem_range.1 (hk.mem_iff.1 hk')) hs
    (fun _ _ _ _ => trivial)
  have h3 := h2.congr (J' := fun i _ => i ∈ [a.set]) fun i j => by simp [hmem j]
  have hmin' : st ≠ 0x80000000#32 := loop_bits_ne_min h3 fun _ _ p _ _ => hm p
  have h0 : 0 ||| put 0 st = put 0 st := by simp
  refine ⟨put 0 st, st, m', h0 ▸ h1, tracked_of_whole hF hS h3, ⟨(put_reports hmin' 0).1, fun k _ => ?_⟩,
    put_zero_eq hmin', fun I owner hO hm => recorded_of_whole hF hO hm h3⟩
  rw [put_bit, if_neg (by omega)]; simp

/-! ## What the tests of the debug kernels let through -/

/-- C77 fails for a line that ends after the last element: the test compares the begin of the line with the
number of elements, and elements beyond the end are read. -/
theorem C77_line_end_violated (S : Sem E C R) (lat : List E) (b e : Nat) (hb : b ≤ lat.length)
    (he : lat.length < e) (fin : Bool) (a : Args) (ha : Legal a) (hp : InPlace a)
    (m : JobTrack.Mem C R) (hs : ∃ ps, m.objs[a.set]? = some (some ps)) :
    lineDebug S lat b e fin a m = .ub := by
  obtain ⟨ps, hps⟩ := hs
  have h1 : particlesOf a m = .ok (some ps) := by
    unfold particlesOf
    rw [hp.1, hps]; rfl
  unfold lineDebug
  rw [ha.ok, if_pos rfl, h1]
  simp only [Res.ok_bind]
  unfold debugLine lineOf
  rw [if_pos ⟨hp.2, rfl, by omega, hb⟩, if_neg (by omega)]
  rfl

/-- C77 fails for the index of a set that does not exist: it is read before it is tested. -/
theorem C77_set_index_violated (S : Sem E C R) (lat : List E) (n : Int) (b e : Nat) (fin : Bool) (a : Args)
    (ha : Legal a) (m : JobTrack.Mem C R) (hs : m.objs.length ≤ a.set) :
    untilDebug S lat n a m = .ub ∧ lineDebug S lat b e fin a m = .ub := by
  have h1 : particlesOf a m = .ub := by
    unfold particlesOf
    rw [List.getElem?_eq_none hs]
    cases a.pRemap <;> rfl
  constructor
  · unfold untilDebug debugTurns; rw [ha.ok, if_pos rfl, h1]; rfl
  · unfold lineDebug; rw [ha.ok, if_pos rfl, h1]; rfl

/-- C77 fails for buffers that need remapping: the addresses in them are used before the test. -/
theorem C77_remap_violated (S : Sem E C R) (lat : List E) (n : Int) (b e : Nat) (fin : Bool) (a : Args)
    (ha : Legal a) (m : JobTrack.Mem C R) :
    (a.pRemap = true → untilDebug S lat n a m = .ub ∧ lineDebug S lat b e fin a m = .ub) ∧
    (a.eRemap = true → untilDebug S lat n a m = .ub ∧ (b ≤ e → lineDebug S lat b e fin a m = .ub)) := by
  constructor
  · intro h
    have h1 : particlesOf a m = .ub := by unfold particlesOf; rw [h]; rfl
    constructor
    · unfold untilDebug debugTurns; rw [ha.ok, if_pos rfl, h1]; rfl
    · unfold lineDebug; rw [ha.ok, if_pos rfl, h1]; rfl
  · intro h
    constructor
    · unfold untilDebug debugTurns
      rw [ha.ok, if_pos rfl]
      cases particlesOf a m with
      | ub => rfl
      | ok p => simp [h]
    · intro hb
      unfold lineDebug
      rw [ha.ok, if_pos rfl]
      cases particlesOf a m with
      | ub => rfl
      | ok p =>
        simp only [Res.ok_bind]
        unfold debugLine
        rw [if_neg (by simp [h]), if_pos ⟨h, hb⟩]

/-- C77 fails for the index of a configuration that does not exist, or of an object that is none: it is not
tested, and the configuration is read for the first particle.  The index one past the last is read at
once. -/
theorem C77_config_violated (S : Sem E C R) (lat : List E) (cfgs : List (Option Cfg)) (ci : Nat)
    (hc : cfgs.length ≤ ci ∨ cfgs[ci]? = some none) (nn n : Int) (hn : 0 ≤ n) (a : Args) (ha : Legal a)
    (hp : InPlace a) (m : JobTrack.Mem C R) (ps : List (Part C)) (hs : m.objs[a.set]? = some (some ps))
    (hlt : a.pidx < ps.length) : ebeDebug S lat false cfgs ci nn n a m = .ub := by
  by_cases h : ci = cfgs.length
  · have : configAt cfgs ci = .ub := by unfold configAt; rw [if_neg (by omega), if_pos h]
    unfold ebeDebug
    rw [ha.ok, this]; rfl
  · have h1 : configAt cfgs ci = .ok none := by
      unfold configAt
      rcases hc with hc | hc
      · rw [if_neg (by omega), if_neg h]
      · rw [if_pos (List.getElem?_eq_some_iff.1 hc).1, hc]; rfl
    rw [ebeDebug_eq S lat h1 nn ha hp hn ⟨ps, hs⟩, kernelOn_set hs]
    unfold loopSet
    rw [if_pos hlt, if_pos ⟨ha.pidx, ha.stride⟩]
    have hp0 := ha.pidx
    have hlen : ps.length = (ps.length - 1) + 1 := by omega
    have : loop (ebeOne S none nn lat n) a.stride.toNat ps.length a.pidx.toNat ⟨0, ps, m.out, m.recs⟩ = .ub := by
      rw [hlen]
      unfold loop
      rw [if_pos (by simp; omega)]
      unfold runOne
      rw [List.getElem?_eq_getElem (by simp; omega)]
      rfl
    rw [this]; rfl

/-! ## Cases that meet the hypotheses -/

/-- Legal arguments for the first set of `twoSets`. -/
def legalArgs : Args := ⟨false, false, false, false, 8, 0, 0, 1⟩

theorem legalArgs_legal : Legal legalArgs := ⟨rfl, rfl, by decide, by decide, by decide⟩

/-- A launch of three work-items in the order 2, 0, 1 for the set of two particles of `twoSets`. -/
example : ∃ reg st m', items (fun k m => untilDebug toy3 [2, 3] (2 : Nat) (legalArgs.item 3 k) m) [2, 0, 1] 0
    twoSets = .ok (reg, m') ∧ Tracked (trackUntil toy3 [2, 3] (2 : Nat)) [0] twoSets st m' ∧
      (reg = 0#64 ↔ st = 0#32) := by
  obtain ⟨reg, st, m', h1, h2, -, h3, -⟩ := C77_launch_partial toy3 [2, 3] (toy3_status32 _)
    (fun _ _ _ => by simp only [toy3]; decide) 2 legalArgs legalArgs_legal ⟨rfl, rfl⟩ 3 (by decide)
    [2, 0, 1] (by decide) twoSets ⟨_, rfl⟩
  exact ⟨reg, st, m', h1, h2, h3⟩

/-- All that can be wrong with the arguments at once. -/
example : ∃ reg, untilDebug toy3 [2, 3] 2 ⟨true, true, false, false, 0, 0, -1, 1⟩ twoSets =
    .ok (failed, reg, twoSets) ∧ reg = 0x0000000FFFFFFFFF#64 := ⟨_, rfl, by decide⟩

/-- An object that is not a set, and a negative number of turns. -/
example : ∃ reg, untilDebug toy3 [2, 3] (-1) ⟨false, false, false, false, 8, 1, 0, 1⟩ twoSets =
    .ok (failed, reg, twoSets) ∧ reg = 0x00000110FFFFFFFF#64 := ⟨_, rfl, by decide⟩

/-- Boundaries of a line in the wrong order. -/
example : ∃ reg, lineDebug toy3 [2, 3] 2 1 true ⟨false, false, false, false, 8, 0, 0, 1⟩ twoSets =
    .ok (failed, reg, twoSets) ∧ reg = 0x00000080FFFFFFFF#64 := ⟨_, rfl, by decide⟩

/-- A line that ends one element too late. -/
example : lineDebug toy3 [2, 3] 0 3 true legalArgs twoSets = .ub :=
  C77_line_end_violated toy3 [2, 3] 0 3 (by decide) (by decide) true legalArgs legalArgs_legal ⟨rfl, rfl⟩
    twoSets ⟨_, rfl⟩

/-- A configuration that does not exist. -/
example : ebeDebug toy3 [2, 3] false [] 1 0 2 legalArgs twoSets = .ub :=
  C77_config_violated toy3 [2, 3] [] 1 (Or.inl (by decide)) 0 2 (by decide) legalArgs legalArgs_legal
    ⟨rfl, rfl⟩ twoSets _ rfl (by decide)

end SixTrack
