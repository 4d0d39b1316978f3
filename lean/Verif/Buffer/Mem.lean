import Verif.Basic

/-!
# Byte-addressed memory

The managed buffer is modelled on byte-addressed memory.  A memory is a list of
allocated blocks (start address, length) together with the byte stored at every
address.  Bytes outside of the allocated blocks have a value too (whatever is
there), but every access to them is undefined behaviour, as is a misaligned
64-bit access.

`SIXTRACKLIB_COPY_VALUES`, `SIXTRACKLIB_MOVE_VALUES` and `SIXTRACKLIB_SET_VALUES`
are `memcpy`, `memmove` and `memset` in host code
(`/repo/sixtracklib/common/definitions.h` lines 583-584, 647-648, 674-675).
-/

namespace SixTrack.Buf

/-- `2^64`: addresses and sizes are `uint64_t`. -/
abbrev W : Nat := 18446744073709551616

/-- Memory: the allocated blocks and the contents. -/
structure Mem where
  blocks : List (Nat × Nat)
  byte : Nat → UInt8

namespace Mem

/-- The `n` bytes from address `a` on lie inside one allocated block. -/
def valid (m : Mem) (a n : Nat) : Prop :=
  n = 0 ∨ ∃ b ∈ m.blocks, b.1 ≤ a ∧ a + n ≤ b.1 + b.2

instance (m : Mem) (a n : Nat) : Decidable (m.valid a n) := by
  unfold valid; infer_instance

/-- The 64-bit little-endian value formed by eight bytes. -/
def le (f : Nat → UInt8) (a : Nat) : Nat :=
  (f a).toNat + 256 * ((f (a + 1)).toNat + 256 * ((f (a + 2)).toNat + 256 * ((f (a + 3)).toNat +
    256 * ((f (a + 4)).toNat + 256 * ((f (a + 5)).toNat + 256 * ((f (a + 6)).toNat +
      256 * (f (a + 7)).toNat))))))

/-- The 64-bit value at address `a`. -/
def word (m : Mem) (a : Nat) : Nat := le m.byte a

/-- The contents after storing the 64-bit value `v` at `a`. -/
def put (m : Mem) (a v : Nat) : Mem :=
  { m with byte := fun x => if a ≤ x ∧ x < a + 8 then UInt8.ofNat (v / 256 ^ (x - a)) else m.byte x }

/-- The contents after copying `n` bytes from `s` to `d`. -/
def move (m : Mem) (d s n : Nat) : Mem :=
  { m with byte := fun x => if d ≤ x ∧ x < d + n then m.byte (s + (x - d)) else m.byte x }

/-- The contents after setting the `n` bytes from `d` on to zero. -/
def zero (m : Mem) (d n : Nat) : Mem :=
  { m with byte := fun x => if d ≤ x ∧ x < d + n then 0 else m.byte x }

/-- Reading a `uint64_t`. -/
def load64 (m : Mem) (a : Nat) : Res Nat :=
  if a % 8 = 0 ∧ m.valid a 8 then .ok (m.word a) else .ub

/-- Writing a `uint64_t`. -/
def store64 (m : Mem) (a v : Nat) : Res Mem :=
  if a % 8 = 0 ∧ m.valid a 8 then .ok (m.put a v) else .ub

/-- `memmove`. -/
def memmove (m : Mem) (d s n : Nat) : Res Mem :=
  if m.valid d n ∧ m.valid s n then .ok (m.move d s n) else .ub

/-- `memcpy`: undefined if the two ranges overlap. -/
def memcpy (m : Mem) (d s n : Nat) : Res Mem :=
  if m.valid d n ∧ m.valid s n ∧ (n = 0 ∨ d + n ≤ s ∨ s + n ≤ d) then .ok (m.move d s n) else .ub

/-- `memset( d, 0, n )`. -/
def memzero (m : Mem) (d n : Nat) : Res Mem :=
  if m.valid d n then .ok (m.zero d n) else .ub

/-- The bytes `a, …, a+n-1`. -/
def bytes (m : Mem) (a n : Nat) : List UInt8 := (List.range n).map fun i => m.byte (a + i)

end Mem

/-! ## Basic facts -/

namespace Mem

@[simp] theorem put_blocks (m : Mem) (a v : Nat) : (m.put a v).blocks = m.blocks := rfl
@[simp] theorem move_blocks (m : Mem) (d s n : Nat) : (m.move d s n).blocks = m.blocks := rfl
@[simp] theorem zero_blocks (m : Mem) (d n : Nat) : (m.zero d n).blocks = m.blocks := rfl

@[simp] theorem put_valid (m : Mem) (a v b n : Nat) : (m.put a v).valid b n ↔ m.valid b n := Iff.rfl
@[simp] theorem move_valid (m : Mem) (d s k b n : Nat) : (m.move d s k).valid b n ↔ m.valid b n :=
  Iff.rfl
@[simp] theorem zero_valid (m : Mem) (d k b n : Nat) : (m.zero d k).valid b n ↔ m.valid b n := Iff.rfl

theorem valid_sub {m : Mem} {a n b k : Nat} (h : m.valid a n) (h1 : a ≤ b) (h2 : b + k ≤ a + n) :
    m.valid b k := by
  rcases h with h | ⟨c, hc, h3, h4⟩
  · left; omega
  · right; exact ⟨c, hc, by omega, by omega⟩

theorem byte_put_of_lt (m : Mem) {a v x : Nat} (h : x < a ∨ a + 8 ≤ x) :
    (m.put a v).byte x = m.byte x := by
  simp only [put]; rw [if_neg (by omega)]

theorem byte_move_in (m : Mem) {d s n x : Nat} (h : d ≤ x ∧ x < d + n) :
    (m.move d s n).byte x = m.byte (s + (x - d)) := by
  simp only [move]; rw [if_pos h]

theorem byte_move_out (m : Mem) {d s n x : Nat} (h : x < d ∨ d + n ≤ x) :
    (m.move d s n).byte x = m.byte x := by
  simp only [move]; rw [if_neg (by omega)]

theorem byte_zero_in (m : Mem) {d n x : Nat} (h : d ≤ x ∧ x < d + n) :
    (m.zero d n).byte x = 0 := by
  simp only [zero]; rw [if_pos h]

theorem byte_zero_out (m : Mem) {d n x : Nat} (h : x < d ∨ d + n ≤ x) :
    (m.zero d n).byte x = m.byte x := by
  simp only [zero]; rw [if_neg (by omega)]

theorem le_congr {f g : Nat → UInt8} {a b : Nat} (h : ∀ i < 8, f (a + i) = g (b + i)) :
    le f a = le g b := by
  have h0 := h 0 (by omega); have h1 := h 1 (by omega); have h2 := h 2 (by omega)
  have h3 := h 3 (by omega); have h4 := h 4 (by omega); have h5 := h 5 (by omega)
  have h6 := h 6 (by omega); have h7 := h 7 (by omega)
  simp only [Nat.add_zero] at h0
  simp only [le, h0, h1, h2, h3, h4, h5, h6, h7]

theorem le_lt (f : Nat → UInt8) (a : Nat) : le f a < W := by
  have h0 := (f a).toNat_lt; have h1 := (f (a + 1)).toNat_lt; have h2 := (f (a + 2)).toNat_lt
  have h3 := (f (a + 3)).toNat_lt; have h4 := (f (a + 4)).toNat_lt; have h5 := (f (a + 5)).toNat_lt
  have h6 := (f (a + 6)).toNat_lt; have h7 := (f (a + 7)).toNat_lt
  simp only [le, W]; omega

theorem word_lt (m : Mem) (a : Nat) : m.word a < W := le_lt _ _

theorem le_inj {f g : Nat → UInt8} {a b : Nat} (h : le f a = le g b) (i : Nat) (hi : i < 8) :
    f (a + i) = g (b + i) := by
  have b0 := (f a).toNat_lt; have b1 := (f (a + 1)).toNat_lt; have b2 := (f (a + 2)).toNat_lt
  have b3 := (f (a + 3)).toNat_lt; have b4 := (f (a + 4)).toNat_lt; have b5 := (f (a + 5)).toNat_lt
  have b6 := (f (a + 6)).toNat_lt; have b7 := (f (a + 7)).toNat_lt
  have c0 := (g b).toNat_lt; have c1 := (g (b + 1)).toNat_lt; have c2 := (g (b + 2)).toNat_lt
  have c3 := (g (b + 3)).toNat_lt; have c4 := (g (b + 4)).toNat_lt; have c5 := (g (b + 5)).toNat_lt
  have c6 := (g (b + 6)).toNat_lt; have c7 := (g (b + 7)).toNat_lt
  simp only [le] at h
  apply UInt8.toNat_inj.mp
  match i, hi with
  | 0, _ => simp only [Nat.add_zero]; omega
  | 1, _ => omega
  | 2, _ => omega
  | 3, _ => omega
  | 4, _ => omega
  | 5, _ => omega
  | 6, _ => omega
  | 7, _ => omega

theorem word_put_same (m : Mem) (a v : Nat) (hv : v < W) : (m.put a v).word a = v := by
  have key : ∀ i, i < 8 → ((m.put a v).byte (a + i)).toNat = v / 256 ^ i % 256 := by
    intro i hi
    simp only [put]
    rw [if_pos (by omega), Nat.add_sub_cancel_left, UInt8.toNat_ofNat']
  have h0 := key 0 (by omega); have h1 := key 1 (by omega); have h2 := key 2 (by omega)
  have h3 := key 3 (by omega); have h4 := key 4 (by omega); have h5 := key 5 (by omega)
  have h6 := key 6 (by omega); have h7 := key 7 (by omega)
  simp only [Nat.add_zero] at h0
  simp only [word, le, h0, h1, h2, h3, h4, h5, h6, h7, W] at *
  omega

theorem word_eq_of_bytes {m m' : Mem} {a b : Nat} (h : ∀ i < 8, m'.byte (b + i) = m.byte (a + i)) :
    m'.word b = m.word a := le_congr h

theorem word_put_other (m : Mem) {a v b : Nat} (h : b + 8 ≤ a ∨ a + 8 ≤ b) :
    (m.put a v).word b = m.word b :=
  word_eq_of_bytes fun i hi => byte_put_of_lt m (by omega)

theorem word_move_in (m : Mem) {d s n b : Nat} (h : d ≤ b ∧ b + 8 ≤ d + n) :
    (m.move d s n).word b = m.word (s + (b - d)) :=
  word_eq_of_bytes fun i hi => by
    rw [byte_move_in m (by omega)]; congr 1; omega

theorem word_move_out (m : Mem) {d s n b : Nat} (h : b + 8 ≤ d ∨ d + n ≤ b) :
    (m.move d s n).word b = m.word b :=
  word_eq_of_bytes fun i hi => byte_move_out m (by omega)

theorem word_zero_out (m : Mem) {d n b : Nat} (h : b + 8 ≤ d ∨ d + n ≤ b) :
    (m.zero d n).word b = m.word b :=
  word_eq_of_bytes fun i hi => byte_zero_out m (by omega)

theorem word_zero_in (m : Mem) {d n b : Nat} (h : d ≤ b ∧ b + 8 ≤ d + n) :
    (m.zero d n).word b = 0 := by
  have key : ∀ i, i < 8 → (m.zero d n).byte (b + i) = 0 := fun i hi => byte_zero_in m (by omega)
  have h0 := key 0 (by omega); have h1 := key 1 (by omega); have h2 := key 2 (by omega)
  have h3 := key 3 (by omega); have h4 := key 4 (by omega); have h5 := key 5 (by omega)
  have h6 := key 6 (by omega); have h7 := key 7 (by omega)
  simp only [Nat.add_zero] at h0
  simp [word, le, h0, h1, h2, h3, h4, h5, h6, h7]

theorem load64_ok {m : Mem} {a : Nat} (h1 : a % 8 = 0) (h2 : m.valid a 8) :
    m.load64 a = .ok (m.word a) := if_pos ⟨h1, h2⟩

theorem store64_ok {m : Mem} {a v : Nat} (h1 : a % 8 = 0) (h2 : m.valid a 8) :
    m.store64 a v = .ok (m.put a v) := if_pos ⟨h1, h2⟩

theorem memmove_ok {m : Mem} {d s n : Nat} (h1 : m.valid d n) (h2 : m.valid s n) :
    m.memmove d s n = .ok (m.move d s n) := if_pos ⟨h1, h2⟩

theorem memzero_ok {m : Mem} {d n : Nat} (h1 : m.valid d n) :
    m.memzero d n = .ok (m.zero d n) := if_pos h1

theorem load64_eq_ok {m : Mem} {a v : Nat} (h : m.load64 a = .ok v) :
    a % 8 = 0 ∧ m.valid a 8 ∧ m.word a = v := by
  unfold load64 at h
  split at h
  · rename_i hc; exact ⟨hc.1, hc.2, by simpa using h⟩
  · cases h

theorem store64_eq_ok {m m' : Mem} {a v : Nat} (h : m.store64 a v = .ok m') :
    a % 8 = 0 ∧ m.valid a 8 ∧ m' = m.put a v := by
  unfold store64 at h
  split at h
  · rename_i hc; exact ⟨hc.1, hc.2, by simpa using h.symm⟩
  · cases h

theorem memcpy_eq_ok {m m' : Mem} {d s n : Nat} (h : m.memcpy d s n = .ok m') :
    m.valid d n ∧ m.valid s n ∧ (n = 0 ∨ d + n ≤ s ∨ s + n ≤ d) ∧ m' = m.move d s n := by
  unfold memcpy at h
  split at h
  · rename_i hc; exact ⟨hc.1, hc.2.1, hc.2.2, by simpa using h.symm⟩
  · cases h

theorem memmove_eq_ok {m m' : Mem} {d s n : Nat} (h : m.memmove d s n = .ok m') :
    m.valid d n ∧ m.valid s n ∧ m' = m.move d s n := by
  unfold memmove at h
  split at h
  · rename_i hc; exact ⟨hc.1, hc.2, by simpa using h.symm⟩
  · cases h

theorem memzero_eq_ok {m m' : Mem} {d n : Nat} (h : m.memzero d n = .ok m') :
    m.valid d n ∧ m' = m.zero d n := by
  unfold memzero at h
  split at h
  · rename_i hc; exact ⟨hc, by simpa using h.symm⟩
  · cases h

@[simp] theorem bytes_length (m : Mem) (a n : Nat) : (m.bytes a n).length = n := by simp [bytes]

theorem bytes_getElem? (m : Mem) (a n i : Nat) (h : i < n) : (m.bytes a n)[i]? = some (m.byte (a + i)) := by
  simp [bytes, h]

attribute [irreducible] put move zero

end Mem

end SixTrack.Buf
