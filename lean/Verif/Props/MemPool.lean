import Verif.MemPool
import Verif.Props.Align

/-! # Property C13: memory pool -/

namespace SixTrack
open Align MemPool

namespace MemPool

/-- A pool in use: it has memory, its chunk size is positive, the used part is inside the
capacity, and it lies in the lower half of the address space (where user space is). -/
structure Pool.WF (q : Pool) : Prop where
  begin : q.beginPos ≠ 0
  chunk : 0 < q.chunk
  size : q.size ≤ q.capacity
  addr : q.beginPos + q.capacity < 2 ^ 63

/-- A request for which the 64-bit arithmetic of the pool does not overflow. -/
structure Fits (q : Pool) (numBytes alignment : Nat) : Prop where
  bytes : 0 < numBytes
  align : 0 < alignment
  common : alignment * q.chunk < 2 ^ 64
  round : numBytes + q.chunk ≤ 2 ^ 64

/-- Number of bytes rounded up to whole chunks. -/
def roundUp (n chunk : Nat) : Nat := (n + chunk - 1) / chunk * chunk

/-- The allocation `r` starts at a multiple of the alignment and of the chunk size. -/
def Aligned (q : Pool) (alignment : Nat) (r : Alloc) : Prop := alignment ∣ r.p ∧ q.chunk ∣ r.p

theorem bytesToAdd_eq {n c : Nat} (hc : 0 < c) (h : n + c ≤ 2 ^ 64) :
    (if n / c * c < n then u64 (n / c * c + c) else n / c * c) = roundUp n c := by
  unfold roundUp u64
  have h1 : n / c * c + n % c = n := by rw [Nat.mul_comm]; exact Nat.div_add_mod n c
  have h2 : n % c < c := Nat.mod_lt _ hc
  generalize hk : n / c = k at *
  generalize hr : n % c = r at *
  by_cases h0 : r = 0
  · rw [if_neg (by omega)]
    have : n + c - 1 = (c - 1) + k * c := by omega
    rw [this, Nat.add_mul_div_right _ _ hc, Nat.div_eq_of_lt (by omega), Nat.zero_add]
  · rw [if_pos (by omega), Nat.mod_eq_of_lt (by omega)]
    have : n + c - 1 = (r - 1) + (k + 1) * c := by
      rw [Nat.add_mul, Nat.one_mul]; omega
    rw [this, Nat.add_mul_div_right _ _ hc, Nat.div_eq_of_lt (a := r - 1) (by omega), Nat.zero_add,
      Nat.add_mul, Nat.one_mul]

theorem le_roundUp {n c : Nat} (hc : 0 < c) : n ≤ roundUp n c := by
  unfold roundUp
  have h1 : (n + c - 1) / c * c + (n + c - 1) % c = n + c - 1 := by
    rw [Nat.mul_comm]; exact Nat.div_add_mod _ c
  have h2 : (n + c - 1) % c < c := Nat.mod_lt _ hc
  omega

theorem roundUp_lt {n c : Nat} (hc : 0 < c) : roundUp n c < n + c := by
  unfold roundUp
  have h1 : (n + c - 1) / c * c ≤ n + c - 1 := Nat.div_mul_le_self _ _
  omega

/-- The offset found by `get_next_begin_offset` for a pool in use: the least offset not below the
current size which gives an aligned address, or `U64_MAX` if that is beyond the capacity. -/
theorem nextBeginOffset_spec {q : Pool} (hq : q.WF) {al : Nat} (ha : 0 < al)
    (hc : al * q.chunk < 2 ^ 64) :
    ∃ o, q.size ≤ o ∧ Nat.lcm al q.chunk ∣ q.beginPos + o ∧
      (∀ o', q.size ≤ o' → Nat.lcm al q.chunk ∣ q.beginPos + o' → o ≤ o') ∧
      nextBeginOffset q al = .ok (if o ≤ q.capacity then o else U64MAX) := by
  obtain ⟨h1, h2, h3⟩ := common_spec ha hq.chunk hc
  have hb := hq.begin
  have hs := hq.size
  have hA := hq.addr
  unfold nextBeginOffset common
  simp only
  rw [if_neg (by omega)]
  rw [← h1]
  generalize Align.lcm al q.chunk = U at h2 h3
  have hU : U < 2 ^ 64 := by omega
  have hm : U * ((q.beginPos + q.size) / U) + (q.beginPos + q.size) % U = q.beginPos + q.size :=
    Nat.div_add_mod _ _
  have hlt : (q.beginPos + q.size) % U < U := Nat.mod_lt _ h2
  by_cases h0 : (q.beginPos + q.size) % U = 0
  · refine ⟨q.size, Nat.le_refl _, Nat.dvd_of_mod_eq_zero h0, fun o' h _ => h, ?_⟩
    simp [h0]
  · generalize hM : (q.beginPos + q.size) % U = M at *
    generalize hQ : (q.beginPos + q.size) / U = Q at *
    have hdv : U ∣ q.beginPos + (q.size + (U - M)) := by
      refine ⟨Q + 1, ?_⟩
      rw [Nat.mul_add, Nat.mul_one]; omega
    refine ⟨q.size + (U - M), by omega, hdv, ?_, ?_⟩
    · intro o' ho hd
      obtain ⟨k, hk⟩ := hd
      by_contra hlt'
      have hk1 : Q < k := by
        by_contra hkQ
        have : U * k ≤ U * Q := Nat.mul_le_mul_left U (by omega)
        omega
      have : U * (Q + 1) ≤ U * k := Nat.mul_le_mul_left U (by omega)
      rw [Nat.mul_add, Nat.mul_one] at this
      omega
    · have hno : q.size < U64MAX - (U - M) := by
        have hUM : U64MAX = 2 ^ 64 - 1 := rfl
        rw [hUM]
        rcases Nat.eq_zero_or_pos Q with hQ0 | hQ0
        · subst hQ0
          omega
        · have : U * 1 ≤ U * Q := Nat.mul_le_mul_left U hQ0
          omega
      have hne : U - M ≠ 0 ∧ q.size < U64MAX - (U - M) := ⟨by omega, hno⟩
      simp only [ne_eq, h0, not_false_eq_true, if_true]
      rw [if_pos hne]

end MemPool

/-- **C13**: one allocation.  With a pool in use and a request whose size and alignment do not
overflow, `append_aligned` places the block at the least sufficiently aligned position after the
used part, if it still fits, and otherwise returns an invalid result and leaves the pool as it was.
The block starts at an address that is a multiple of the alignment and of the chunk size, is at
least as long as requested, and lies behind everything allocated before and inside the pool. -/
theorem C13_append_partial (q : Pool) (hq : q.WF) (n al : Nat) (hf : Fits q n al) :
    ∃ o, q.size ≤ o ∧
      (∀ o', q.size ≤ o' → al ∣ q.beginPos + o' → q.chunk ∣ q.beginPos + o' → o ≤ o') ∧
      (∀ q' r, appendAligned q n al = .ok (q', r) →
        (o + roundUp n q.chunk ≤ q.capacity →
          r.valid = true ∧ r.p = q.beginPos + o ∧ r.offset = o ∧ r.length = roundUp n q.chunk ∧
          n ≤ r.length ∧ Aligned q al r ∧ q' = { q with size := o + roundUp n q.chunk } ∧ q'.WF) ∧
        (q.capacity < o + roundUp n q.chunk → r = Alloc.preset ∧ r.valid = false ∧ q' = q)) ∧
      ∃ q' r, appendAligned q n al = .ok (q', r) := by
  obtain ⟨o, h1, h2, h3, h4⟩ := nextBeginOffset_spec hq hf.align hf.common
  have hA := hq.addr
  have hB := hq.begin
  have hC := hq.chunk
  have hlr : n ≤ roundUp n q.chunk := le_roundUp hC
  have hru : roundUp n q.chunk < n + q.chunk := roundUp_lt hC
  have hUM : U64MAX = 2 ^ 64 - 1 := rfl
  have hfr := hf.round
  have hfb := hf.bytes
  refine ⟨o, h1, fun o' a b c => h3 o' a (Nat.lcm_dvd b c), ?_⟩
  have key : appendAligned q n al = .ok (if o + roundUp n q.chunk ≤ q.capacity then
      ({ q with size := o + roundUp n q.chunk }, ⟨q.beginPos + o, o, roundUp n q.chunk⟩)
      else (q, Alloc.preset)) := by
    unfold appendAligned
    rw [h4, Res.ok_bind]
    simp only [bytesToAdd_eq hC hfr]
    by_cases ho : o ≤ q.capacity
    · rw [if_pos ho, if_pos ⟨hB, hfb, by omega, hC⟩]
      by_cases hin : o + roundUp n q.chunk ≤ q.capacity
      · rw [if_pos (by omega), if_pos hin, if_pos hin]; rfl
      · rw [if_neg hin, if_neg hin]
        by_cases hw : o < U64MAX - roundUp n q.chunk
        · rw [if_pos hw]; rfl
        · rw [if_neg hw]; rfl
    · rw [if_neg ho, if_neg (by simp), if_neg (by omega)]; rfl
  constructor
  · intro q' r h
    rw [key, Res.ok_inj] at h
    constructor
    · intro hin
      rw [if_pos hin] at h
      obtain ⟨rfl, rfl⟩ := Prod.mk.inj h
      refine ⟨?_, rfl, rfl, rfl, hlr, ⟨?_, ?_⟩, rfl, ⟨hB, hC, hin, hA⟩⟩
      · simp [Alloc.valid]; omega
      · exact Nat.dvd_trans (Nat.dvd_lcm_left _ _) h2
      · exact Nat.dvd_trans (Nat.dvd_lcm_right _ _) h2
    · intro hin
      rw [if_neg (by omega)] at h
      obtain ⟨rfl, rfl⟩ := Prod.mk.inj h
      exact ⟨rfl, rfl, rfl⟩
  · exact ⟨_, _, key⟩

namespace MemPool

/-- The pool after a sequence of requests, with the results in order. -/
def run (q : Pool) : List (Nat × Nat) → Res (Pool × List Alloc)
  | [] => .ok (q, [])
  | (n, al) :: rest => do
    let (q1, r) ← appendAligned q n al
    let (q2, rs) ← run q1 rest
    .ok (q2, r :: rs)

end MemPool

/-- **C13**: any history of allocations from a pool.  All requests are answered; the valid results
are blocks inside the pool behind what was allocated before, each at least as long as requested
and aligned as requested, and pairwise disjoint (in increasing order). -/
theorem C13_history_partial (q : Pool) (hq : q.WF) (reqs : List (Nat × Nat))
    (hf : ∀ x ∈ reqs, Fits q x.1 x.2) :
    ∃ q' rs, run q reqs = .ok (q', rs) ∧ rs.length = reqs.length ∧ q'.WF ∧
      q' = { q with size := q'.size } ∧ q.size ≤ q'.size ∧
      (∀ x ∈ reqs.zip rs, x.2.valid = true →
        x.1.1 ≤ x.2.length ∧ Aligned q x.1.2 x.2 ∧
        q.beginPos + q.size ≤ x.2.p ∧ x.2.p + x.2.length ≤ q.beginPos + q'.size ∧
        x.2.p = q.beginPos + x.2.offset) ∧
      List.Pairwise (fun r s => r.valid = true → s.valid = true → r.p + r.length ≤ s.p) rs := by
  induction reqs generalizing q with
  | nil => exact ⟨q, [], rfl, rfl, hq, rfl, Nat.le_refl _, by simp, List.Pairwise.nil⟩
  | cons x rest ih =>
    obtain ⟨n, al⟩ := x
    have hf0 := hf (n, al) (by simp)
    obtain ⟨o, h1, _, h3, q1, r, h4⟩ := C13_append_partial q hq n al hf0
    obtain ⟨hyes, hno⟩ := h3 q1 r h4
    have hq1 : q1.WF ∧ q1 = { q with size := q1.size } ∧ q.size ≤ q1.size ∧
        (r.valid = true → n ≤ r.length ∧ Aligned q al r ∧ q.beginPos + q.size ≤ r.p ∧
          r.p + r.length ≤ q.beginPos + q1.size ∧ r.p = q.beginPos + r.offset) := by
      rcases Nat.lt_or_ge q.capacity (o + roundUp n q.chunk) with hc | hc
      · obtain ⟨_, hv, rfl⟩ := hno hc
        exact ⟨hq, rfl, Nat.le_refl _, fun h => by rw [hv] at h; simp at h⟩
      · obtain ⟨_, a1, a2, a3, a4, a5, a6, a7⟩ := hyes hc
        refine ⟨a7, by rw [a6], by rw [a6]; simp only; omega, fun _ => ⟨a4, a5, by omega, ?_, ?_⟩⟩
        · rw [a6, a1, a3]; simp only; omega
        · rw [a1, a2]
    obtain ⟨hw, heq, hsz, hr⟩ := hq1
    have hb1 : q1.beginPos = q.beginPos := by rw [heq]
    have hc1 : q1.chunk = q.chunk := by rw [heq]
    have hal : ∀ a s, Aligned q1 a s ↔ Aligned q a s := fun a s => by unfold Aligned; rw [hc1]
    obtain ⟨q', rs, b1, b2, b3, b4, b5, b6, b7⟩ := ih q1 hw (fun y hy => by
      have := hf y (by simp [hy])
      exact ⟨this.bytes, this.align, by rw [hc1]; exact this.common, by rw [hc1]; exact this.round⟩)
    refine ⟨q', r :: rs, ?_, by simp [b2], b3, ?_, by omega, ?_, ?_⟩
    · unfold run; rw [h4, Res.ok_bind]; simp only; rw [b1]; rfl
    · rw [b4, heq]
    · intro x hx hv
      rw [List.zip_cons_cons, List.mem_cons] at hx
      rcases hx with rfl | hx
      · obtain ⟨c1, c2, c3, c4, c5⟩ := hr hv
        exact ⟨c1, c2, c3, by simp only at *; omega, c5⟩
      · obtain ⟨c1, c2, c3, c4, c5⟩ := b6 x hx hv
        rw [hb1] at c3 c4 c5
        exact ⟨c1, (hal _ _).1 c2, by omega, c4, c5⟩
    · refine List.Pairwise.cons ?_ b7
      intro s hs hv hvs
      obtain ⟨i, hi, rfl⟩ := List.getElem_of_mem hs
      have hmem : (rest[i]'(by omega), rs[i]) ∈ rest.zip rs := by
        rw [List.mem_iff_getElem]
        exact ⟨i, by simp [b2]; omega, by simp⟩
      obtain ⟨_, _, c3, _⟩ := b6 _ hmem hvs
      obtain ⟨_, _, _, d4, _⟩ := hr hv
      simp only at c3
      rw [hb1] at c3
      omega

/-- A pool of 96 bytes at address 4096 with chunks of 8 bytes answers three requests; the third
fails. -/
example : run ⟨4096, 4096, 0, 96, 0, 8⟩ [(5, 1), (17, 32), (64, 8)] =
    .ok (⟨4096, 4096, 0, 96, 56, 8⟩, [⟨4096, 0, 8⟩, ⟨4128, 32, 24⟩, ⟨0, 0, 0⟩]) ∧
    Pool.WF ⟨4096, 4096, 0, 96, 0, 8⟩ ∧
    (∀ x ∈ [(5, 1), (17, 32), (64, 8)], Fits ⟨4096, 4096, 0, 96, 0, 8⟩ x.1 x.2) := by
  refine ⟨by decide +kernel, ⟨by decide, by decide, by decide, by decide⟩, ?_⟩
  intro x hx
  simp only [List.mem_cons, List.not_mem_nil, or_false] at hx
  rcases hx with rfl | rfl | rfl <;> exact ⟨by decide, by decide, by decide, by decide⟩

/-- **C13 is false of the code** without the restrictions on the request: an alignment of 0 and an
alignment whose product with the chunk size is a multiple of `2^64` divide by zero; an alignment
whose product with the chunk size overflows otherwise may give a block that is not aligned; and a
request of almost `2^64` bytes is rounded up to 0 bytes, so that the result is invalid although the
used size of the pool changes. -/
theorem C13_append_violated :
    (appendAligned ⟨4096, 4096, 0, 96, 0, 8⟩ 8 0 = .ub) ∧
    (appendAligned ⟨4096, 4096, 0, 2 ^ 40, 0, 2 ^ 32⟩ 8 (2 ^ 32) = .ub) ∧
    (∃ q' r, appendAligned ⟨2 ^ 32, 2 ^ 32, 0, 2 ^ 40, 0, 2 ^ 32⟩ 8 (2 ^ 32 + 1) = .ok (q', r) ∧
      r.valid = true ∧ ¬ (2 ^ 32 + 1 ∣ r.p)) ∧
    (∃ q' r, appendAligned ⟨4096, 4096, 0, 96, 8, 8⟩ (2 ^ 64 - 1) 16 = .ok (q', r) ∧
      r.valid = false ∧ q'.size = 16) := by
  have e1 : Align.lcm 0 8 = 0 := by rw [C14_lcm_partial _ _ (by decide)]; rfl
  have e2 : Align.lcm (2 ^ 32) (2 ^ 32) = 0 := by unfold Align.lcm; rw [C14_gcd]; decide
  have e3 : Align.lcm (2 ^ 32 + 1) (2 ^ 32) = 2 ^ 32 := by unfold Align.lcm; rw [C14_gcd]; decide
  have e4 : Align.lcm 16 8 = 16 := by rw [C14_lcm_partial _ _ (by decide)]; rfl
  refine ⟨?_, ?_, ?_, ?_⟩
  · unfold appendAligned nextBeginOffset common
    simp [e1]
  · unfold appendAligned nextBeginOffset common
    simp only [e2]; rfl
  · refine ⟨⟨2 ^ 32, 2 ^ 32, 0, 2 ^ 40, 2 ^ 32, 2 ^ 32⟩, ⟨2 ^ 32, 0, 2 ^ 32⟩, ?_, by decide, by decide⟩
    unfold appendAligned nextBeginOffset common
    simp only [e3]; decide
  · refine ⟨⟨4096, 4096, 0, 96, 16, 8⟩, ⟨4112, 16, 0⟩, ?_, by decide, by decide⟩
    unfold appendAligned nextBeginOffset common
    simp only [e4]; decide

/-- **C13**: a freshly initialised pool is in use, empty, starts at an address with the requested
alignment, offers at least the requested capacity and lies inside the memory it obtained. -/
theorem C13_init (malloc : Nat → Nat) (capacity chunk al : Nat) (hc : 0 < chunk) (ha : 0 < al)
    (hb : al + max capacity chunk + chunk ≤ 2 ^ 64)
    (hm : malloc (initBytes capacity chunk al) ≠ 0)
    (hu : malloc (initBytes capacity chunk al) + initBytes capacity chunk al < 2 ^ 63) :
    let q := initAligned malloc capacity chunk al
    q.WF ∧ q.size = 0 ∧ q.chunk = chunk ∧ al ∣ q.beginPos ∧ capacity ≤ q.capacity ∧
      q.buffer = malloc (initBytes capacity chunk al) ∧ q.buffer ≤ q.beginPos ∧
      q.beginPos + q.capacity = q.buffer + initBytes capacity chunk al := by
  have hmax : (if chunk < capacity then capacity else chunk) = max capacity chunk := by
    split_ifs <;> omega
  have hbytes : initBytes capacity chunk al = roundUp (al + max capacity chunk) chunk := by
    unfold initBytes
    simp only [hmax]
    rw [show Align.u64 (al + max capacity chunk) = al + max capacity chunk from
      Nat.mod_eq_of_lt (by omega)]
    exact bytesToAdd_eq hc (by omega)
  have hle := le_roundUp (n := al + max capacity chunk) hc
  rw [← hbytes] at hle
  intro q
  have hlt : malloc (initBytes capacity chunk al) % al < al := Nat.mod_lt _ ha
  have hdm := Nat.div_add_mod (malloc (initBytes capacity chunk al)) al
  have hq : q = initAligned malloc capacity chunk al := rfl
  unfold initAligned at hq
  rw [if_pos ⟨hc, ha⟩] at hq
  simp only [if_pos hm] at hq
  generalize malloc (initBytes capacity chunk al) = B at *
  generalize initBytes capacity chunk al = N at *
  obtain ⟨off, hoff⟩ : ∃ off, (if B % al ≠ 0 then al - B % al else 0) = off := ⟨_, rfl⟩
  have hoff1 : off < al ∧ al ∣ B + off := by
    rw [← hoff]
    by_cases h0 : B % al = 0
    · rw [if_neg (by simpa using h0)]
      exact ⟨ha, Nat.dvd_of_mod_eq_zero h0⟩
    · rw [if_pos h0]
      refine ⟨by omega, ⟨B / al + 1, ?_⟩⟩
      rw [Nat.mul_add, Nat.mul_one]; omega
  rw [hoff] at hq
  have hcap : Align.u64 (N + 2 ^ 64 - off) = N - off := by
    unfold Align.u64
    rw [show N + 2 ^ 64 - off = (N - off) + 2 ^ 64 by omega, Nat.add_mod_right]
    exact Nat.mod_eq_of_lt (by omega)
  rw [hcap] at hq
  rw [hq]
  refine ⟨⟨?_, hc, ?_, ?_⟩, rfl, rfl, hoff1.2, ?_, rfl, ?_, ?_⟩ <;> simp only <;> omega

/-- A concrete start: 100 bytes in chunks of 8, aligned to 32, from a block at address 4104. -/
example : let q := initAligned (fun _ => 4104) 100 8 32
    q = ⟨4104, 4128, 24, 112, 0, 8⟩ ∧ q.WF ∧ q.size = 0 ∧ q.chunk = 8 ∧ 32 ∣ q.beginPos ∧
      100 ≤ q.capacity := by
  obtain ⟨h1, h2, h3, h4, h5, _⟩ := C13_init (fun _ => 4104) 100 8 32 (by decide) (by decide)
    (by decide) (by decide) (by decide)
  exact ⟨by decide, h1, h2, h3, h4, h5⟩

/-- **C13**: growing a pool keeps the allocated blocks: the used size, the chunk size and all bytes
at the same offsets are unchanged, nothing outside the new memory is written, and there is at least
the new capacity.  If no memory is available, nothing changes. -/
theorem C13_reserve (malloc : Nat → Nat) (q : Pool) (hq : q.WF) (m : Mem) (cap al : Nat)
    (ha : 0 < al) (hb : al + max cap q.chunk + q.chunk ≤ 2 ^ 64) (hcap : q.capacity < cap)
    (hu : malloc (initBytes cap q.chunk al) + initBytes cap q.chunk al < 2 ^ 63) :
    let (q', m', changed) := reserveAligned malloc q m cap al
    (changed = true ↔ malloc (initBytes cap q.chunk al) ≠ 0) ∧
    (changed = false → q' = q ∧ m' = m) ∧
    (changed = true → q'.WF ∧ cap ≤ q'.capacity ∧ q'.size = q.size ∧ q'.chunk = q.chunk ∧
      al ∣ q'.beginPos ∧
      (∀ i < q.size, m' (q'.beginPos + i) = m (q.beginPos + i)) ∧
      (∀ a, a < q'.beginPos ∨ q'.beginPos + q.size ≤ a → m' a = m a)) := by
  have hinit := C13_init malloc cap q.chunk al hq.chunk ha hb
  have hb0 := hq.begin
  have hsz := hq.size
  unfold reserveAligned
  rw [if_pos ⟨hcap, hq.chunk⟩]
  by_cases hm : malloc (initBytes cap q.chunk al) = 0
  · have hp : initAligned malloc cap q.chunk al = preset := by
      unfold initAligned
      rw [if_pos ⟨hq.chunk, ha⟩]
      simp [hm]
    simp only [hp, preset]
    simp [hm]
  · obtain ⟨h1, h2, h3, h4, h5, h6, h7, h8⟩ := hinit hm hu
    have hw := h1.begin
    have hw2 := h1.addr
    have hb' : (initAligned malloc cap q.chunk al).buffer ≠ 0 := by rw [h6]; exact hm
    simp only [if_pos hb']
    generalize initAligned malloc cap q.chunk al = Q at *
    by_cases hs : q.beginPos ≠ 0 ∧ 0 < q.size
    · rw [if_pos hs]
      refine ⟨by simpa using hm, by simp, fun _ => ⟨⟨hw, by simp only; rw [h3]; exact hq.chunk,
        by simp only; omega, hw2⟩, h5, rfl, h3, h4, ?_, ?_⟩⟩
      · intro i hi
        unfold memcpy
        simp only
        rw [if_pos (by omega)]
        congr 1
        omega
      · intro a h
        unfold memcpy
        simp only at h ⊢
        rw [if_neg (by omega)]
    · rw [if_neg hs]
      have h0 : q.size = 0 := by
        by_contra h
        exact hs ⟨hb0, by omega⟩
      refine ⟨by simpa using hm, by simp, fun _ => ⟨h1, h5, by rw [h2, h0], h3, h4, ?_, ?_⟩⟩
      · intro i hi; omega
      · intro a _; rfl

example : (reserveAligned (fun _ => 8192) ⟨4096, 4096, 0, 96, 40, 8⟩ (fun a => a.toUInt8) 200 16).1
    = ⟨8192, 8192, 0, 216, 40, 8⟩ ∧
    (∀ i < 40, (reserveAligned (fun _ => 8192) ⟨4096, 4096, 0, 96, 40, 8⟩ (fun a => a.toUInt8)
      200 16).2.1 (8192 + i) = (4096 + i).toUInt8) := by
  have h := C13_reserve (fun _ => 8192) ⟨4096, 4096, 0, 96, 40, 8⟩
    ⟨by decide, by decide, by decide, by decide⟩ (fun a => a.toUInt8) 200 16
    (by decide) (by decide) (by decide) (by decide)
  exact ⟨by decide, (h.2.2 (h.1.2 (by decide))).2.2.2.2.2.1⟩

/-- **C13**, start alignment: `clear_to_aligned_position` compares the alignment with the size of
the memory the wrong way round.  Whenever the alignment is not larger than the memory, it only
empties the pool and reports failure; the start of the pool stays where it was, aligned or not. -/
theorem C13_clear_to_aligned_violated :
    (∀ (q : Pool) (al : Nat), Align.lcm al q.chunk ≤ Align.u64 (q.capacity + q.beginOffset) →
      clearToAligned q al = (clear q, false)) ∧
    (clearToAligned ⟨4104, 4104, 0, 96, 8, 8⟩ 16 = (⟨4104, 4104, 0, 96, 0, 8⟩, false) ∧
      ¬ (16 ∣ 4104)) := by
  have h : ∀ (q : Pool) (al : Nat), Align.lcm al q.chunk ≤ Align.u64 (q.capacity + q.beginOffset) →
      clearToAligned q al = (clear q, false) := by
    intro q al h
    unfold clearToAligned
    simp only
    by_cases h1 : 0 < al ∧ 0 < q.chunk ∧ q.buffer ≠ 0
    · rw [if_pos h1]
      by_cases h2 : Align.lcm al q.chunk = 0
      · rw [if_pos h2]
      · rw [if_neg h2, if_neg (by omega)]
    · rw [if_neg h1]
  refine ⟨h, ?_, by decide⟩
  rw [h]
  · rfl
  · rw [C14_lcm_partial _ _ (by decide)]; decide

end SixTrack
