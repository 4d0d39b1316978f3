import Verif.WorkItems
import Verif.Props.TrackDebug

/-!
# C78: the threads of a CUDA launch are numbered
-/

namespace SixTrack
open WorkItems

/-- Number of points of a `Dim3`. -/
def volume (d : Dim3) : Nat := d.x.toNat * d.y.toNat * d.z.toNat

/-- `i` is the index of a point of `d`. -/
def Inside (d i : Dim3) : Prop :=
  i.x.toNat < d.x.toNat ∧ i.y.toNat < d.y.toNat ∧ i.z.toNat < d.z.toNat

/-- The place of a thread in a launch: its block in the grid and its place in the block. -/
def ThreadOf (grid block : Dim3) (p : Dim3 × Dim3) : Prop := Inside grid p.1 ∧ Inside block p.2

/-- The launch is within the ranges of the types: a block has less than 2^32 threads, the grid less than
2^32 blocks. -/
def Fits (grid block : Dim3) : Prop := volume grid < 2 ^ 32 ∧ volume block < 2 ^ 32

namespace WorkItems

theorem product_toNat {d : Dim3} (h : volume d < 2 ^ 32) (hz : 0 < d.z.toNat) :
    d.product.toNat = volume d := by
  have h1 : d.x.toNat * d.y.toNat < 2 ^ 32 := by
    refine Nat.lt_of_le_of_lt ?_ h
    exact Nat.le_mul_of_pos_right _ hz
  unfold Dim3.product volume at *
  rw [BitVec.toNat_setWidth, BitVec.toNat_mul, BitVec.toNat_mul, Nat.mod_eq_of_lt h1, Nat.mod_eq_of_lt h,
    Nat.mod_eq_of_lt (by omega)]

/-- the number of the point `i` of `d` -/
def rank (d i : Dim3) : Nat := i.x.toNat + d.x.toNat * (i.y.toNat + d.y.toNat * i.z.toNat)

theorem digit_lt {a A b B : Nat} (ha : a < A) (hb : b < B) : a + A * b < A * B := by
  have : A * (b + 1) ≤ A * B := Nat.mul_le_mul_left A hb
  rw [Nat.mul_add, Nat.mul_one] at this
  omega

theorem digit_inj {a A b a' b' : Nat} (ha : a < A) (ha' : a' < A) (h : a + A * b = a' + A * b') :
    a = a' ∧ b = b' := by
  have hA : 0 < A := by omega
  have h1 := congrArg (· % A) h
  have h2 := congrArg (· / A) h
  simp only [Nat.add_mul_mod_self_left, Nat.mod_eq_of_lt ha, Nat.mod_eq_of_lt ha'] at h1
  simp only [Nat.add_mul_div_left _ _ hA, Nat.div_eq_of_lt ha, Nat.div_eq_of_lt ha', Nat.zero_add] at h2
  exact ⟨h1, h2⟩

theorem rank_lt {d i : Dim3} (h : Inside d i) : rank d i < volume d := by
  unfold rank volume
  rw [Nat.mul_assoc]
  exact digit_lt h.1 (digit_lt h.2.1 h.2.2)

theorem rank_inj {d i j : Dim3} (hi : Inside d i) (hj : Inside d j) (h : rank d i = rank d j) : i = j := by
  obtain ⟨h1, h2⟩ := digit_inj hi.1 hj.1 h
  obtain ⟨h3, h4⟩ := digit_inj hi.2.1 hj.2.1 h2
  cases i; cases j
  simp only [Dim3.mk.injEq]
  exact ⟨BitVec.eq_of_toNat_eq h1, BitVec.eq_of_toNat_eq h3, BitVec.eq_of_toNat_eq h4⟩

theorem rank_surj {d : Dim3} {k : Nat} (h : k < volume d) : ∃ i, Inside d i ∧ rank d i = k := by
  unfold volume at h
  have hx : 0 < d.x.toNat := Nat.pos_of_ne_zero fun h0 => by simp [h0] at h
  have hy : 0 < d.y.toNat := Nat.pos_of_ne_zero fun h0 => by simp [h0] at h
  have h1 : k % d.x.toNat < d.x.toNat := Nat.mod_lt _ hx
  have h2 : k / d.x.toNat % d.y.toNat < d.y.toNat := Nat.mod_lt _ hy
  have h3 : k / d.x.toNat / d.y.toNat < d.z.toNat := by
    rw [Nat.div_div_eq_div_mul]
    exact Nat.div_lt_of_lt_mul h
  have e : ∀ n (D : BitVec 32), n < D.toNat → (BitVec.ofNat 32 n).toNat = n := fun n D hn => by
    rw [BitVec.toNat_ofNat]
    exact Nat.mod_eq_of_lt (Nat.lt_trans hn D.isLt)
  refine ⟨⟨BitVec.ofNat 32 (k % d.x.toNat), BitVec.ofNat 32 (k / d.x.toNat % d.y.toNat),
    BitVec.ofNat 32 (k / d.x.toNat / d.y.toNat)⟩, ⟨?_, ?_, ?_⟩, ?_⟩
  · dsimp only; rw [e _ _ h1]; exact h1
  · dsimp only; rw [e _ _ h2]; exact h2
  · dsimp only; rw [e _ _ h3]; exact h3
  · unfold rank
    dsimp only
    rw [e _ _ h1, e _ _ h2, e _ _ h3, Nat.mod_add_div, Nat.mod_add_div]

theorem setWidth_eq (x : BitVec 32) : x.setWidth 64 = BitVec.ofNat 64 x.toNat :=
  BitVec.eq_of_toNat_eq (by rw [BitVec.toNat_setWidth, BitVec.toNat_ofNat])

theorem threadId_toNat {grid block : Dim3} (hf : Fits grid block) {b t : Dim3} (hb : Inside grid b)
    (ht : Inside block t) :
    (threadId grid block t b).toNat = rank block t + volume block * rank grid b := by
  have hp : block.product = BitVec.ofNat 64 (volume block) := by
    apply BitVec.eq_of_toNat_eq
    rw [product_toNat hf.2 (by have := ht.2.2; omega), BitVec.toNat_ofNat, Nat.mod_eq_of_lt]
    have := hf.2; omega
  have he : threadId grid block t b = BitVec.ofNat 64 (rank block t + volume block * rank grid b) := by
    unfold threadId
    simp only [hp, setWidth_eq, ← BitVec.ofNat_add, ← BitVec.ofNat_mul]
    congr 1
    unfold rank
    ring
  rw [he, BitVec.toNat_ofNat]
  apply Nat.mod_eq_of_lt
  have h1 := digit_lt (rank_lt ht) (rank_lt hb)
  have h2 : volume block * volume grid ≤ 2 ^ 32 * 2 ^ 32 :=
    Nat.mul_le_mul (Nat.le_of_lt hf.2) (Nat.le_of_lt hf.1)
  omega

end WorkItems

/-- C78: the number of threads that the kernels use as stride is that of the launch. -/
theorem C78_total (grid block : Dim3) (hf : Fits grid block) (hg : 0 < grid.z.toNat)
    (hb : 0 < block.z.toNat) :
    (numBlocks grid).toNat = volume grid ∧ (threadsPerBlock block).toNat = volume block ∧
      (totalThreads grid block).toNat = volume grid * volume block := by
  have h1 := product_toNat hf.1 hg
  have h2 := product_toNat hf.2 hb
  refine ⟨h1, h2, ?_⟩
  unfold totalThreads numBlocks threadsPerBlock
  rw [BitVec.toNat_mul, h1, h2]
  apply Nat.mod_eq_of_lt
  have h3 : volume grid * volume block ≤ (2 ^ 32 - 1) * (2 ^ 32 - 1) :=
    Nat.mul_le_mul (by have := hf.1; omega) (by have := hf.2; omega)
  omega

/-- C78: each number below the number of threads is that of exactly one thread, and no thread has another
number. -/
theorem C78_numbering (grid block : Dim3) (hf : Fits grid block) :
    (∀ p, ThreadOf grid block p → (threadId grid block p.2 p.1).toNat < volume grid * volume block) ∧
    ∀ k, k < volume grid * volume block →
      ∃ p, ThreadOf grid block p ∧ (threadId grid block p.2 p.1).toNat = k ∧
        ∀ q, ThreadOf grid block q → (threadId grid block q.2 q.1).toNat = k → q = p := by
  constructor
  · rintro p ⟨h1, h2⟩
    rw [threadId_toNat hf h1 h2, Nat.mul_comm (volume grid)]
    exact digit_lt (rank_lt h2) (rank_lt h1)
  · intro k hk
    have hv : 0 < volume block := Nat.pos_of_ne_zero fun h0 => by simp [h0] at hk
    obtain ⟨t, ht, et⟩ := rank_surj (Nat.mod_lt k hv)
    obtain ⟨b, hb, eb⟩ := rank_surj (Nat.div_lt_of_lt_mul (Nat.mul_comm _ _ ▸ hk : k < volume block * volume grid))
    refine ⟨(b, t), ⟨hb, ht⟩, ?_, ?_⟩
    · rw [threadId_toNat hf hb ht, et, eb, Nat.mod_add_div]
    · rintro ⟨b', t'⟩ ⟨hb', ht'⟩ h
      rw [threadId_toNat hf hb' ht'] at h
      have h' : rank block t' + volume block * rank grid b' = rank block t + volume block * rank grid b := by
        rw [h, et, eb, Nat.mod_add_div]
      obtain ⟨h1, h2⟩ := digit_inj (rank_lt ht') (rank_lt ht) h'
      exact Prod.ext (rank_inj hb' hb h2) (rank_inj ht' ht h1)

/-- C78: threads that follow one another along x in a block have consecutive numbers. -/
theorem C78_order (grid block : Dim3) (hf : Fits grid block) (b t t' : Dim3) (hb : Inside grid b)
    (ht : Inside block t) (ht' : Inside block t')
    (h : t'.x.toNat = t.x.toNat + 1 ∧ t'.y = t.y ∧ t'.z = t.z) :
    (threadId grid block t' b).toNat = (threadId grid block t b).toNat + 1 := by
  rw [threadId_toNat hf hb ht, threadId_toNat hf hb ht']
  unfold rank
  rw [h.1, h.2.1, h.2.2]
  omega

/-- C78 with C77: the threads of a launch, in any order, one after another, each with its own number and
the number of threads as stride, track all particles of the set. -/
theorem C78_launch_partial {E C R : Type} (S : Track.Sem E C R) (lat : List E) (hS : Status32 S lat)
    (hmin : ∀ e ∈ lat, ∀ p, (S.dispatch e p).status ≠ -2 ^ 31) (n : Nat) (a : JobTrack.Args)
    (ha : Legal a) (hp : InPlace a) (grid block : Dim3) (hf : Fits grid block) (hg : 0 < volume grid)
    (hb : 0 < volume block) (threads : List (Dim3 × Dim3)) (hn : threads.Nodup)
    (hall : ∀ p, p ∈ threads ↔ ThreadOf grid block p) (m : JobTrack.Mem C R)
    (hs : ∃ ps, m.objs[a.set]? = some (some ps)) :
    ∃ reg st m', JobTrack.items
        (fun k m => JobTrack.untilDebug S lat n (a.item (totalThreads grid block).toNat k) m)
        (threads.map fun p => (threadId grid block p.2 p.1).toNat) 0 m = .ok (reg, m') ∧
      Tracked (Track.trackUntil S lat n) [a.set] m st m' ∧ Reports reg st (fun _ => False) := by
  have hz : ∀ {d : Dim3}, 0 < volume d → 0 < d.z.toNat := fun {d} h =>
    Nat.pos_of_ne_zero fun h0 => by simp [volume, h0] at h
  have ht := (C78_total grid block hf (hz hg) (hz hb)).2.2
  obtain ⟨hlt, hex⟩ := C78_numbering grid block hf
  have hpos : 0 < volume grid * volume block := Nat.mul_pos hg hb
  have hnodup : (threads.map fun p => (threadId grid block p.2 p.1).toNat).Nodup := by
    refine List.Nodup.map_on ?_ hn
    intro p hp q hq h
    obtain ⟨r, -, -, hr⟩ := hex _ (hlt p ((hall p).1 hp))
    rw [hr p ((hall p).1 hp) rfl, hr q ((hall q).1 hq) h.symm]
  have hperm : (threads.map fun p => (threadId grid block p.2 p.1).toNat).Perm
      (List.range (totalThreads grid block).toNat) := by
    rw [List.perm_ext_iff_of_nodup hnodup List.nodup_range]
    intro k
    rw [List.mem_map, List.mem_range, ht]
    constructor
    · rintro ⟨p, hp, rfl⟩
      exact hlt p ((hall p).1 hp)
    · intro hk
      obtain ⟨p, hp, he, -⟩ := hex k hk
      exact ⟨p, (hall p).2 hp, he⟩
  obtain ⟨reg, st, m', h1, h2, h3, -⟩ := C77_launch_partial S lat hS hmin n a ha hp
    (totalThreads grid block).toNat (by rw [ht]; exact hpos) _ hperm m hs
  exact ⟨reg, st, m', h1, h2, h3⟩

/-- C78 fails for the function that is called the stride: with 2^32 threads or more its factors of 32 bits
overflow.  A kernel that steps by it does not end (2^22 blocks of 1024 threads), or takes particles that
belong to other threads. -/
theorem C78_stride_violated :
    ∃ grid block : Dim3, Fits grid block ∧ volume grid * volume block = 2 ^ 32 ∧
      (totalThreads grid block).toNat = 2 ^ 32 ∧ threadStride grid block = 0#64 :=
  ⟨⟨0x400000#32, 1#32, 1#32⟩, ⟨1024#32, 1#32, 1#32⟩, by unfold Fits volume; decide, by decide, by decide,
    by decide⟩

/-- C78: below 2^32 threads the stride is the number of threads. -/
theorem C78_stride_partial (grid block : Dim3) (hg : 0 < volume grid) (hb : 0 < volume block)
    (h : volume grid * volume block < 2 ^ 32) :
    (threadStride grid block).toNat = volume grid * volume block := by
  have hz : ∀ {d : Dim3}, 0 < volume d → 0 < d.z.toNat := fun {d} h =>
    Nat.pos_of_ne_zero fun h0 => by simp [volume, h0] at h
  have h1 : volume grid < 2 ^ 32 := Nat.lt_of_le_of_lt (Nat.le_mul_of_pos_right _ hb) h
  have h2 : volume block < 2 ^ 32 := Nat.lt_of_le_of_lt (Nat.le_mul_of_pos_left _ hg) h
  have e : ∀ {d : Dim3}, volume d < 2 ^ 32 → 0 < volume d → (d.x * d.y * d.z).toNat = volume d := by
    intro d hd h0
    have := product_toNat hd (hz h0)
    unfold Dim3.product at this
    rw [BitVec.toNat_setWidth] at this
    rw [← this, Nat.mod_eq_of_lt]
    have := (d.x * d.y * d.z).isLt
    omega
  unfold threadStride
  rw [BitVec.toNat_setWidth, BitVec.toNat_mul, e h1 hg, e h2 hb, Nat.mod_eq_of_lt h, Nat.mod_eq_of_lt]
  omega

/-- A grid of 3 × 2 × 2 blocks of 4 × 3 × 2 threads: thread (1, 2, 1) of block (2, 1, 1) has number 285 of
288. -/
example : Fits ⟨3, 2, 2⟩ ⟨4, 3, 2⟩ ∧ ThreadOf ⟨3, 2, 2⟩ ⟨4, 3, 2⟩ (⟨2, 1, 1⟩, ⟨1, 2, 1⟩) ∧
    threadId ⟨3, 2, 2⟩ ⟨4, 3, 2⟩ ⟨1, 2, 1⟩ ⟨2, 1, 1⟩ = 285#64 ∧
    totalThreads ⟨3, 2, 2⟩ ⟨4, 3, 2⟩ = 288#64 := by
  refine ⟨by unfold Fits volume; decide, ?_, by decide, by decide⟩
  unfold ThreadOf Inside; decide

/-- Two blocks of one thread. -/
example : ∃ reg st m', JobTrack.items
    (fun k m => JobTrack.untilDebug toy3 [2, 3] (2 : Nat) (legalArgs.item (totalThreads ⟨2, 1, 1⟩ ⟨1, 1, 1⟩).toNat k) m)
    [1, 0] 0 twoSets = .ok (reg, m') ∧ Tracked (Track.trackUntil toy3 [2, 3] (2 : Nat)) [0] twoSets st m' := by
  obtain ⟨reg, st, m', h1, h2, -⟩ := C78_launch_partial toy3 [2, 3] (toy3_status32 _)
    (fun _ _ _ => by simp only [toy3]; decide) 2 legalArgs legalArgs_legal ⟨rfl, rfl⟩ ⟨2, 1, 1⟩ ⟨1, 1, 1⟩
    (by unfold Fits volume; decide) (by decide) (by decide) [(⟨1, 0, 0⟩, ⟨0, 0, 0⟩), (⟨0, 0, 0⟩, ⟨0, 0, 0⟩)]
    (by decide) (fun p => by
      obtain ⟨⟨bx, b2, b3⟩, ⟨t1, t2, t3⟩⟩ := p
      simp only [List.mem_cons, List.not_mem_nil, or_false, Prod.mk.injEq, Dim3.mk.injEq, ThreadOf, Inside,
        BitVec.toNat_eq, BitVec.toNat_ofNat, BitVec.ofNat_eq_ofNat]
      omega)
    twoSets ⟨_, rfl⟩
  exact ⟨reg, st, m', h1, h2⟩

end SixTrack
