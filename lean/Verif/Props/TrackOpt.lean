import Verif.TrackOptLemmas
import Verif.Props.TrackDebug
import Mathlib.Tactic.IntervalCases

/-!
# C80: the optimised tracking kernels
-/

namespace SixTrack
open Track EBE JobTrack

variable {V E R : Type}

/-- The results of an optimised kernel, as the plain kernels see the memory. -/
def seen (r : Res (Status × TrackOpt.Mem V R)) : Res (Status × JobTrack.Mem (TrackOpt.RealField → V) R) :=
  r.bind fun x => .ok (x.1, x.2.view)

/-- The same with a debug register. -/
def seenReg (r : Res (Status × BitVec 64 × TrackOpt.Mem V R)) :
    Res (Status × BitVec 64 × JobTrack.Mem (TrackOpt.RealField → V) R) :=
  r.bind fun x => .ok (x.1, x.2.1, x.2.2.view)

open TrackOpt (RealField IndexField Flat Arrays copyFrom copyTo)

/-! ## Particles in flat arrays -/

/-- C80: `n` particles in flat arrays of 17 `n` and 4 `n` values: every attribute of every particle has a
place of its own, and every place is used. -/
theorem C80_flat (l : Flat V) (hr : l.nReals = 17 * l.num) (hi : l.nInds = 4 * l.num) :
    (∀ f i, i < l.num → l.realPos f i < l.nReals) ∧ (∀ f i, i < l.num → l.indPos f i < l.nInds) ∧
    (∀ f i g j, i < l.num → j < l.num → l.realPos f i = l.realPos g j → f = g ∧ i = j) ∧
    (∀ f i g j, i < l.num → j < l.num → l.indPos f i = l.indPos g j → f = g ∧ i = j) ∧
    (∀ k, k < l.nReals → ∃ f i, i < l.num ∧ l.realPos f i = k) ∧
    ∀ k, k < l.nInds → ∃ f i, i < l.num ∧ l.indPos f i = k := by
  have hR : TrackOpt.Room l := ⟨by omega, by omega⟩
  refine ⟨fun f i h => hR.realPos_lt f h, fun f i h => hR.indPos_lt f h,
    fun f i g j h h' => TrackOpt.realPos_inj h h', fun f i g j h h' => TrackOpt.indPos_inj h h', ?_, ?_⟩
  · intro k hk
    have hn : 0 < l.num := by omega
    have hlt : k / l.num < 17 := Nat.div_lt_of_lt_mul (by rw [Nat.mul_comm, ← hr]; exact hk)
    have hex : ∀ q, q < 17 → ∃ f : RealField, f.slot = q := by
      intro q hq
      interval_cases q
      · exact ⟨.q0, rfl⟩
      · exact ⟨.mass0, rfl⟩
      · exact ⟨.beta0, rfl⟩
      · exact ⟨.gamma0, rfl⟩
      · exact ⟨.p0c, rfl⟩
      · exact ⟨.s, rfl⟩
      · exact ⟨.x, rfl⟩
      · exact ⟨.y, rfl⟩
      · exact ⟨.px, rfl⟩
      · exact ⟨.py, rfl⟩
      · exact ⟨.zeta, rfl⟩
      · exact ⟨.psigma, rfl⟩
      · exact ⟨.delta, rfl⟩
      · exact ⟨.rpp, rfl⟩
      · exact ⟨.rvv, rfl⟩
      · exact ⟨.chi, rfl⟩
      · exact ⟨.chargeRatio, rfl⟩
    obtain ⟨f, hf⟩ := hex _ hlt
    refine ⟨f, k % l.num, Nat.mod_lt _ hn, ?_⟩
    unfold Flat.realPos
    rw [hf, Nat.mul_comm]
    exact Nat.div_add_mod k l.num
  · intro k hk
    have hn : 0 < l.num := by omega
    have hlt : k / l.num < 4 := Nat.div_lt_of_lt_mul (by rw [Nat.mul_comm, ← hi]; exact hk)
    have hex : ∀ q, q < 4 → ∃ f : IndexField, f.slot = q := by
      intro q hq
      match q, hq with
      | 0, _ => exact ⟨.particleId, rfl⟩
      | 1, _ => exact ⟨.atElementId, rfl⟩
      | 2, _ => exact ⟨.atTurn, rfl⟩
      | 3, _ => exact ⟨.state, rfl⟩
    obtain ⟨f, hf⟩ := hex _ hlt
    refine ⟨f, k % l.num, Nat.mod_lt _ hn, ?_⟩
    unfold Flat.indPos
    rw [hf, Nat.mul_comm]
    exact Nat.div_add_mod k l.num

/-- C80: copying a particle out of a set: all its attributes arrive, and the other particles of the
destination stay. -/
theorem C80_copy_from (dst : Flat V) (hr : 17 * dst.num ≤ dst.nReals) (hi : 4 * dst.num ≤ dst.nInds) (d : Nat)
    (hd : d < dst.num) (src : Arrays V) (s : Nat) (hs : s < src.num) :
    ∃ l, copyFrom dst d src s = .ok (0, l) ∧ l.num = dst.num ∧ l.part d = .ok (src.part s) ∧
      ∀ j, j < dst.num → j ≠ d → l.part j = dst.part j := by
  have hR : TrackOpt.Room dst := ⟨hr, hi⟩
  obtain ⟨l, h1, h2⟩ := TrackOpt.copyFrom_eq hR hd hs
  refine ⟨l, h1, h2.num, h2.part_at hR hd, fun j hj hne => ?_⟩
  rw [TrackOpt.part_eq (h2.room hR) (by rw [h2.num]; exact hj), TrackOpt.part_eq hR hj]
  have e1 : ∀ f, l.realPos f j = dst.realPos f j := fun f => by unfold Flat.realPos; rw [h2.num]
  have e2 : ∀ f, l.indPos f j = dst.indPos f j := fun f => by unfold Flat.indPos; rw [h2.num]
  simp only [e1, e2, h2.real _ _ hj, h2.ind _ _ hj, if_neg hne]

/-- C80: copying a particle into a set: all its attributes arrive, and the other particles stay. -/
theorem C80_copy_to (src : Flat V) (hr : 17 * src.num ≤ src.nReals) (hi : 4 * src.num ≤ src.nInds) (s : Nat)
    (hs : s < src.num) (dst : Arrays V) (d : Nat) (hd : d < dst.num) :
    ∃ a p, copyTo dst d src s = .ok (0, a) ∧ a.num = dst.num ∧ src.part s = .ok p ∧ a.part d = p ∧
      ∀ j, j ≠ d → a.part j = dst.part j := by
  have hR : TrackOpt.Room src := ⟨hr, hi⟩
  obtain ⟨a, h1, h2⟩ := TrackOpt.copyTo_eq hR hs hd
  refine ⟨a, _, h1, h2.num, TrackOpt.part_eq hR hs, ?_, fun j hj => ?_⟩
  · unfold Arrays.part
    simp only [h2.real, h2.ind, if_pos]
  · unfold Arrays.part
    simp only [h2.real, h2.ind, if_neg hj]

/-- C80: a particle that does not exist, in the source or in the destination: nothing is copied, and the
status says so. -/
theorem C80_copy_refused (l : Flat V) (i : Nat) (a : Arrays V) (j : Nat) (h : l.num ≤ i ∨ a.num ≤ j) :
    copyFrom l i a j = .ok (-1, l) ∧ copyTo a j l i = .ok (-1, a) := by
  unfold copyFrom copyTo
  rw [if_neg (by omega), if_neg (by omega)]
  exact ⟨rfl, rfl⟩

/-- C80 fails for the assertion in the copy into a set, in a debug build: it compares the number of particles
of the destination with the index in the source, so that a copy that works makes the program stop.  (The
optimised kernels use the index 0; a beam monitor uses the index of the particle in its set.) -/
theorem C80_copy_assert_violated (zero : V) : ∃ (src : Flat V) (s : Nat) (dst a : Arrays V) (d : Nat),
    s < src.num ∧ d < dst.num ∧ copyTo dst d src s = .ok (0, a) ∧ ¬ TrackOpt.copyToAsserts dst d s := by
  obtain ⟨a, -, h, -⟩ := C80_copy_to (V := V) ⟨2, 34, 8, fun _ => zero, fun _ => 0⟩ (Nat.le_refl 34)
    (Nat.le_refl 8) 1 Nat.one_lt_two ⟨1, fun _ _ => zero, fun _ _ => 0⟩ 0 Nat.one_pos
  exact ⟨_, 1, _, a, 0, Nat.one_lt_two, Nat.one_pos, h,
    by simp [TrackOpt.copyToAsserts]⟩

/-! ## The kernels -/

/-- C80: for any object of the buffer the optimised kernel for tracking over turns leaves the same status and
memory as the plain kernel (and is undefined only if that one is). -/
theorem C80_until (zero : V) (S : Sem E (RealField → V) R) (lat : List E) (n : Int) (m : TrackOpt.Mem V R)
    (set : Nat) (hs : set < m.objs.length) (pidx stride : Int) :
    seen (TrackOpt.untilKernel zero S lat n m set pidx stride) =
      untilKernel S lat n m.view set pidx stride :=
  (TrackOpt.kernelOn_view zero _ m hs pidx stride).symm

/-- C80: the same for element-by-element tracking. -/
theorem C80_elem_by_elem (zero : V) (S : Sem E (RealField → V) R) (lat : List E) (cfgs : List (Option Cfg))
    (ci : Nat) (nn n : Int) (m : TrackOpt.Mem V R) (set : Nat) (hs : set < m.objs.length)
    (pidx stride : Int) :
    seen (TrackOpt.ebeKernel zero S lat cfgs ci nn n m set pidx stride) =
      ebeKernel S lat cfgs ci nn n m.view set pidx stride := by
  unfold TrackOpt.ebeKernel ebeKernel
  cases configAt cfgs ci with
  | ub => rfl
  | ok c => exact (TrackOpt.kernelOn_view zero _ m hs pidx stride).symm

/-- C80: the same for a part of the lattice. -/
theorem C80_line (zero : V) (S : Sem E (RealField → V) R) (lat : List E) (b e : Nat) (fin : Bool)
    (m : TrackOpt.Mem V R) (set : Nat) (hs : set < m.objs.length) (pidx stride : Int) :
    seen (TrackOpt.lineKernel zero S lat b e fin m set pidx stride) =
      lineKernel S lat b e fin m.view set pidx stride := by
  unfold TrackOpt.lineKernel lineKernel
  cases lineOf lat b e with
  | ub => rfl
  | ok line => exact (TrackOpt.kernelOn_view zero _ m hs pidx stride).symm

/-- C80: one work-item for a whole set: every particle is tracked, the other sets stay, the status is success
exactly if each particle was tracked with success. -/
theorem C80_tracked (zero : V) (S : Sem E (RealField → V) R) (lat : List E) (hS : Status32 S lat) (n : Nat)
    (hn : n < 2 ^ 63) (m : TrackOpt.Mem V R) (set : Nat) (a : Arrays V) (hs : m.objs[set]? = some (some a)) :
    ∃ st m', TrackOpt.untilKernel zero S lat n m set 0 1 = .ok (st, m') ∧
      Tracked (trackUntil S lat n) [set] m.view st m'.view := by
  have hv : m.view.objs[set]? = some (some a.list) := by
    unfold TrackOpt.Mem.view
    rw [List.getElem?_map, hs]; rfl
  obtain ⟨st, v, h1, h2, -⟩ := C76_until S lat hS n hn [set] m.view
    ⟨by simp, by simp, by simpa using ⟨a.list, hv⟩⟩
  have h3 := C80_until zero S lat n m set (List.getElem?_eq_some_iff.1 hs).1 0 1
  have h4 : jobUntil S lat n [set] m.view = untilKernel S lat n m.view set 0 1 := by
    change untilKernel S lat (turnNum n) m.view set 0 1 = _
    rw [turnNum_eq hn]
  rw [← h4, h1] at h3
  unfold seen at h3
  cases h : TrackOpt.untilKernel zero S lat n m set 0 1 with
  | ub => rw [h] at h3; cases h3
  | ok r =>
    rw [h] at h3
    have h5 := (Res.ok_inj _ _).1 h3
    simp only [Prod.mk.injEq] at h5
    exact ⟨r.1, r.2, rfl, by rw [h5.1, h5.2]; exact h2⟩

/-! ## The debug kernels -/

/-- C80: for a particle set the optimised debug kernels leave the same status, register and memory as the
plain debug kernels (C77). -/
theorem C80_debug (zero : V) (S : Sem E (RealField → V) R) (lat : List E) (n : Int) (b e : Nat) (fin : Bool)
    (cNull : Bool) (cfgs : List (Option Cfg)) (ci : Nat) (nn : Int) (a : Args) (m : TrackOpt.Mem V R)
    (hs : ∃ x, m.objs[a.set]? = some (some x)) :
    seenReg (TrackOpt.untilDebug zero S lat n a m) = untilDebug S lat n a m.view ∧
    seenReg (TrackOpt.ebeDebug zero S lat cNull cfgs ci nn n a m) =
      ebeDebug S lat cNull cfgs ci nn n a m.view ∧
    seenReg (TrackOpt.lineDebug zero S lat b e fin a m) = lineDebug S lat b e fin a m.view := by
  obtain ⟨x, hx⟩ := hs
  refine ⟨?_, ?_, (TrackOpt.lineDebug_view zero S lat b e fin a m hx).symm⟩
  · unfold TrackOpt.untilDebug untilDebug
    cases a.ok with
    | false =>
      simp only [Bool.false_eq_true, if_false]
      exact (TrackOpt.finish_view _ _ m).symm
    | true => exact (TrackOpt.debugTurns_view zero _ a n m hx).symm
  · unfold TrackOpt.ebeDebug ebeDebug
    cases a.ok && !cNull with
    | false =>
      simp only [Bool.false_eq_true, if_false]
      exact (TrackOpt.finish_view _ _ m).symm
    | true =>
      cases configAt cfgs ci with
      | ub => rfl
      | ok c => exact (TrackOpt.debugTurns_view zero _ a n m hx).symm

/-- C80: arguments that are not legal are refused as by the plain debug kernels, whatever the buffer. -/
theorem C80_refused (zero : V) (S : Sem E (RealField → V) R) (lat : List E) (n : Int) (b e : Nat) (fin : Bool)
    (cNull : Bool) (cfgs : List (Option Cfg)) (ci : Nat) (nn : Int) (a : Args) (m : TrackOpt.Mem V R) :
    (¬ Legal a → ∃ reg, TrackOpt.untilDebug zero S lat n a m = .ok (failed, reg, m) ∧
      TrackOpt.lineDebug zero S lat b e fin a m = .ok (failed, reg, m) ∧
      Reports reg failed (argErrors a false)) ∧
    (¬ Legal a ∨ cNull = true → ∃ reg, TrackOpt.ebeDebug zero S lat cNull cfgs ci nn n a m =
      .ok (failed, reg, m) ∧ Reports reg failed (argErrors a cNull)) := by
  have hfin : ∀ (flags reg : BitVec 64) (v : JobTrack.Mem (RealField → V) R),
      JobTrack.finish flags (failed, v) = .ok (failed, reg, v) →
      TrackOpt.finish flags (failed, m) = .ok (failed, reg, m) := by
    intro flags reg v h
    have hne : failed ≠ 0 := by decide
    unfold JobTrack.finish at h
    unfold TrackOpt.finish
    rw [if_pos hne] at h ⊢
    cases hst : DebugReg.storeStatus flags failed with
    | ub => dsimp only at h; rw [hst] at h; cases h
    | ok g =>
      dsimp only at h ⊢
      rw [hst] at h
      simp only [Res.ok_bind, Res.pure_eq] at h
      have := (Res.ok_inj _ _).1 h
      simp only [Prod.mk.injEq, true_and, and_true] at this
      rw [← this]; rfl
  obtain ⟨h1, h2⟩ := C77_refused S lat n b e fin cfgs ci nn a m.view
  have hnot : ¬ Legal a → a.ok = false := fun h => by
    rw [legal_iff] at h
    exact Bool.not_eq_true _ ▸ h
  constructor
  · intro h
    obtain ⟨reg, h3, -, h5⟩ := h1 h
    have h0 := hnot h
    unfold untilDebug at h3
    simp only [h0, Bool.false_eq_true, if_false] at h3
    have h6 := hfin _ _ _ h3
    refine ⟨reg, ?_, ?_, h5⟩
    · unfold TrackOpt.untilDebug
      simp only [h0, Bool.false_eq_true, if_false]; exact h6
    · unfold TrackOpt.lineDebug
      simp only [h0, Bool.false_eq_true, if_false]; exact h6
  · intro h
    obtain ⟨reg, h3, h5⟩ := h2 cNull h
    have h0 : (a.ok && !cNull) = false := by
      rcases h with h | h
      · rw [hnot h]; rfl
      · rw [h]; simp
    unfold ebeDebug at h3
    simp only [h0, Bool.false_eq_true, if_false] at h3
    refine ⟨reg, ?_, h5⟩
    unfold TrackOpt.ebeDebug
    simp only [h0, Bool.false_eq_true, if_false]
    exact hfin _ _ _ h3

/-- C80: the index of a set above the number of objects is refused by the optimised debug kernels (the plain
ones read it, `C77_set_index_violated`). -/
theorem C80_set_index_refused (zero : V) (S : Sem E (RealField → V) R) (lat : List E) (n : Int) (b e : Nat)
    (fin : Bool) (a : Args) (ha : Legal a) (hp : InPlace a) (m : TrackOpt.Mem V R)
    (h : m.objs.length < a.set) :
    (∃ reg, TrackOpt.untilDebug zero S lat n a m = .ok (failed, reg, m) ∧
      Reports reg failed (fun k => k = 4 ∨ (k = 8 ∧ n < 0))) ∧
    ∃ reg, TrackOpt.lineDebug zero S lat b e fin a m = .ok (failed, reg, m) ∧
      Reports reg failed (fun k => k = 4 ∨ (k = 7 ∧ (e < b ∨ lat.length < e))) := by
  have hfin : ∀ (k : Nat) (c : Bool), 4 < k → k < 32 →
      ∃ reg, TrackOpt.finish (flag true 4 ||| flag c k) (failed, m) = .ok (failed, reg, m) ∧
        Reports reg failed (fun j => j = 4 ∨ (j = k ∧ c = true)) := by
    intro k c hk hk'
    have hbits : ∀ i, (flag true 4 ||| flag c k).getLsbD i = true ↔ i = 36 ∨ (i = 32 + k ∧ c = true) := by
      intro i
      simp only [BitVec.getLsbD_or, flag_bit _ 4 _ (by decide), flag_bit _ k _ hk', Bool.or_eq_true,
        Bool.and_eq_true, decide_eq_true_eq, true_and]
      rw [and_comm]
    obtain ⟨reg, h1, h2⟩ := refused_of (m := m.view) (flags := flag true 4 ||| flag c k)
      (errs := fun j => j = 4 ∨ (j = k ∧ c = true))
      (fun i hi => by rw [← Bool.not_eq_true, hbits]; omega)
      (fun j hj => by
        rw [hbits]
        have e1 : 32 + j = 36 ↔ j = 4 := by omega
        have e2 : 32 + j = 32 + k ↔ j = k := by omega
        rw [e1, e2])
    refine ⟨reg, ?_, h2⟩
    have hne : failed ≠ 0 := by decide
    unfold JobTrack.finish at h1
    unfold TrackOpt.finish
    rw [if_pos hne] at h1 ⊢
    cases hst : DebugReg.storeStatus (flag true 4 ||| flag c k) failed with
    | ub => dsimp only at h1; rw [hst] at h1; cases h1
    | ok g =>
      dsimp only at h1 ⊢
      rw [hst] at h1
      simp only [Res.ok_bind, Res.pure_eq] at h1
      have := (Res.ok_inj _ _).1 h1
      simp only [Prod.mk.injEq, true_and, and_true] at this
      rw [← this]; rfl
  have hobj : TrackOpt.objectOf a m = .ok none := by
    unfold TrackOpt.objectOf TrackOpt.object
    rw [hp.1, if_pos h]; rfl
  constructor
  · obtain ⟨reg, h1, h2⟩ := hfin 8 (decide (n < 0)) (by decide) (by decide)
    refine ⟨reg, ?_, ?_⟩
    · unfold TrackOpt.untilDebug TrackOpt.debugTurns
      rw [ha.ok, if_pos rfl, hobj, hp.2]
      exact h1
    · simpa using h2
  · obtain ⟨reg, h1, h2⟩ := hfin 7 (decide (e < b ∨ lat.length < e)) (by decide) (by decide)
    refine ⟨reg, ?_, ?_⟩
    · unfold TrackOpt.lineDebug
      rw [ha.ok, if_pos rfl, hobj]
      simp only [Res.ok_bind]
      unfold TrackOpt.debugLine
      rw [if_neg (by simp), if_neg (by rw [hp.2]; simp), hp.2]
      simpa [flag] using h1
    · simpa using h2

/-! ## What goes wrong -/

/-- C80 fails for the index of a set above the number of objects: the optimised kernel without register
reports success, and nothing has been tracked. -/
theorem C80_set_index_violated (zero : V) (S : Sem E (RealField → V) R) (lat : List E) (n : Int)
    (m : TrackOpt.Mem V R) (set : Nat) (h : m.objs.length < set) (pidx stride : Int) :
    TrackOpt.untilKernel zero S lat n m set pidx stride = .ok (0, m) := by
  unfold TrackOpt.untilKernel TrackOpt.kernelOn TrackOpt.object
  rw [if_pos h]; rfl

/-- C80 fails for the number of objects as index of a set: the index is read behind its end, by the kernels
with and without register. -/
theorem C80_next_index_violated (zero : V) (S : Sem E (RealField → V) R) (lat : List E) (n : Int) (b e : Nat)
    (fin : Bool) (a : Args) (ha : Legal a) (m : TrackOpt.Mem V R) (h : a.set = m.objs.length) :
    TrackOpt.untilKernel zero S lat n m a.set a.pidx a.stride = .ub ∧
    TrackOpt.untilDebug zero S lat n a m = .ub ∧ TrackOpt.lineDebug zero S lat b e fin a m = .ub := by
  have h1 : TrackOpt.object m a.set = .ub := by
    unfold TrackOpt.object
    rw [if_neg (by omega), h, List.getElem?_eq_none (by omega)]
  have h2 : TrackOpt.objectOf a m = .ub := by
    unfold TrackOpt.objectOf
    rw [h1]; split <;> rfl
  refine ⟨?_, ?_, ?_⟩
  · unfold TrackOpt.untilKernel TrackOpt.kernelOn; rw [h1]; rfl
  · unfold TrackOpt.untilDebug TrackOpt.debugTurns; rw [ha.ok, if_pos rfl, h2]; rfl
  · unfold TrackOpt.lineDebug; rw [ha.ok, if_pos rfl, h2]; rfl

/-- C80 fails for an object that is not a particle set: the optimised debug kernel reports success with an
empty register, where the plain one reports the failure with flag 4 (`C77_turns_refused`). -/
theorem C80_not_a_set_violated (zero : V) (S : Sem E (RealField → V) R) (lat : List E) (n : Int) (hn : 0 ≤ n)
    (a : Args) (ha : Legal a) (hp : InPlace a) (m : TrackOpt.Mem V R) (h : m.objs[a.set]? = some none) :
    TrackOpt.untilDebug zero S lat n a m = .ok (0#32, 0#64, m) ∧
    ∃ reg, untilDebug S lat n a m.view = .ok (failed, reg, m.view) ∧ reg.getLsbD 36 = true := by
  have hlt : a.set < m.objs.length := (List.getElem?_eq_some_iff.1 h).1
  constructor
  · unfold TrackOpt.untilDebug TrackOpt.debugTurns TrackOpt.objectOf TrackOpt.object
    rw [ha.ok, if_pos rfl, hp.1, hp.2, if_neg (show ¬ m.objs.length < a.set by omega), h]
    simp only [Bool.false_eq_true, if_false, Res.ok_bind, if_pos hn]
    rfl
  · obtain ⟨reg, h1, h2⟩ := C77_turns_refused S lat n a ha hp m.view none (by
      unfold TrackOpt.Mem.view
      rw [List.getElem?_map, h]; rfl) (Or.inr rfl)
    exact ⟨reg, h1, (h2.2 4 (by decide)).2 (Or.inl ⟨rfl, rfl⟩)⟩

/-- C80 fails for a line that ends after the last element, as in `C77_line_end_violated`. -/
theorem C80_line_end_violated (zero : V) (S : Sem E (RealField → V) R) (lat : List E) (b e : Nat)
    (hb : b ≤ lat.length) (he : lat.length < e) (fin : Bool) (a : Args) (ha : Legal a) (hp : InPlace a)
    (m : TrackOpt.Mem V R) (hs : ∃ x, m.objs[a.set]? = some (some x)) :
    TrackOpt.lineDebug zero S lat b e fin a m = .ub := by
  obtain ⟨x, hx⟩ := hs
  have h1 := C77_line_end_violated S lat b e hb he fin a ha hp m.view ⟨x.list, by
    unfold TrackOpt.Mem.view
    rw [List.getElem?_map, hx]; rfl⟩
  have h2 := (C80_debug zero S lat 0 b e fin false [] 0 0 a m ⟨x, hx⟩).2.2
  rw [h1] at h2
  unfold seenReg at h2
  cases h : TrackOpt.lineDebug zero S lat b e fin a m with
  | ub => rfl
  | ok r => rw [h] at h2; cases h2

/-! ## Cases that meet the hypotheses -/

/-- Elements that move a particle: `x` grows by `px` times the number of the element. -/
def toyDrift : Sem Int (RealField → Int) Int :=
  ⟨fun e p => ⟨0, fun f => if f = .x then p.coord .x + e * p.coord .px else p.coord f, p.state, none⟩,
    fun c f => if f = .s then 0 else c f⟩

/-- A set of two particles, and an object of another type. -/
def twoArrays : TrackOpt.Mem Int Int :=
  ⟨[some ⟨2, fun f i => f.slot * 100 + i,
      fun f i => if f = .state then 1 else if f = .particleId then i else 0⟩, none], fun _ => 7, fun _ => ⟨fun _ => 0, 0, 0, 0, 0⟩⟩

/-- Both particles of the set of `twoArrays` for two turns through two elements. -/
example : ∃ st m', TrackOpt.untilKernel 0 toyDrift [2, 3] (2 : Nat) twoArrays 0 0 1 = .ok (st, m') ∧
    Tracked (trackUntil toyDrift [2, 3] (2 : Nat)) [0] twoArrays.view st m'.view :=
  C80_tracked 0 toyDrift [2, 3] (fun _ _ _ => by simp only [toyDrift]; decide) 2 (by decide) twoArrays 0 _ rfl

/-- Two particles in flat arrays. -/
example : ∃ l, copyFrom (⟨2, 34, 8, fun _ => 0, fun _ => 0⟩ : Flat Int) 1
    ⟨2, fun f i => f.slot * 100 + i, fun f i => f.slot * 10 + i⟩ 1 = .ok (0, l) ∧ l.getReal .y 1 = .ok 701 ∧
    l.getReal .y 0 = .ok 0 ∧ l.getInd .state 1 = .ok 31 := by
  obtain ⟨l, h, -⟩ := C80_copy_from (⟨2, 34, 8, fun _ => 0, fun _ => 0⟩ : Flat Int) (by decide) (by decide) 1
    (by decide) ⟨2, fun f i => f.slot * 100 + i, fun f i => f.slot * 10 + i⟩ 1 (by decide)
  have h' := h
  unfold copyFrom at h'
  cases (Res.ok_inj _ _).1 h'
  exact ⟨_, h, rfl, rfl, rfl⟩

/-- What a memory shows of its sets: `x` of both particles, `s` and the turn of the second one. -/
def shows (m : TrackOpt.Mem Int Int) : List Int :=
  m.objs.flatMap fun o => match o with
    | none => []
    | some a => [a.real .x 0, a.real .x 1, a.real .s 1, a.ind .atTurn 1]

/-- The kernel for the second particle alone. -/
example : (match TrackOpt.untilKernel 0 toyDrift [2, 3] 1 twoArrays 0 1 1 with
    | .ok r => some (r.1, shows r.2)
    | .ub => none) = some (0#32, [600, 601 + 5 * 801, 0, 1]) := by decide +kernel

/-- An object that is not a set. -/
example : TrackOpt.untilDebug 0 toyDrift [2, 3] 2 ⟨false, false, false, false, 8, 1, 0, 1⟩ twoArrays =
    .ok (0#32, 0#64, twoArrays) :=
  (C80_not_a_set_violated 0 toyDrift [2, 3] 2 (by decide) _ ⟨rfl, rfl, by decide, by decide, by decide⟩
    ⟨rfl, rfl⟩ twoArrays rfl).1

/-- An index above the number of objects. -/
example : ∃ reg, TrackOpt.untilDebug 0 toyDrift [2, 3] 2 ⟨false, false, false, false, 8, 3, 0, 1⟩ twoArrays =
    .ok (failed, reg, twoArrays) ∧ reg = 0x00000010FFFFFFFF#64 := ⟨_, rfl, by decide⟩

end SixTrack
