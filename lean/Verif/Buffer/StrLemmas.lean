import Verif.Buffer.Str
import Verif.Buffer.Modify

/-!
# String objects: what the functions do
-/

namespace SixTrack.Buf.Str

/-- The characters from `a` on are `l`, none of which is zero. -/
def Text (m : Mem) (a : Nat) (l : List UInt8) : Prop := ∀ i c, l[i]? = some c → c ≠ 0 ∧ m.byte (a + i) = c

/-- A C string. -/
structure CStr (m : Mem) (a : Nat) (l : List UInt8) : Prop where
  nz : a ≠ 0
  val : m.valid a (l.length + 1)
  txt : Text m a l
  stop : m.byte (a + l.length) = 0
  lim : l.length < 2 ^ 63

/-- The handle of a string at `p`, which has `cap` characters at `b`. -/
structure Place (m : Mem) (p b cap : Nat) : Prop where
  al : p % 8 = 0
  val : m.valid p 24
  ptr : m.word p = b
  nz : b ≠ 0
  room : m.word (p + 16) = cap
  chars : m.valid b cap
  apart : b + cap ≤ p ∨ p + 24 ≤ b
  lim : cap < 2 ^ 63

/-- The string at `p` is `l`. -/
structure StrAt (m : Mem) (p b cap : Nat) (l : List UInt8) : Prop extends Place m p b cap where
  len : m.word (p + 8) = l.length
  lt : l.length < cap
  txt : Text m b l
  rest : ∀ i, l.length ≤ i → i < cap → m.byte (b + i) = 0

theorem Text.congr {m m' : Mem} {a : Nat} {l : List UInt8} (h : Text m a l)
    (hb : ∀ x, a ≤ x → x < a + l.length → m'.byte x = m.byte x) : Text m' a l := fun i c hi => by
  have hlt := (List.getElem?_eq_some_iff.1 hi).1
  rw [hb _ (by omega) (by omega)]
  exact h i c hi

/-! ## Lengths -/

theorem strlen_ok {m : Mem} : ∀ (l : List UInt8) (a n : Nat), Text m a l → m.byte (a + l.length) = 0 →
    m.valid a (l.length + 1) → l.length < n → strlenLoop m a n = .ok l.length := by
  intro l
  induction l with
  | nil =>
    intro a n _ hs hv hn
    obtain ⟨n, rfl⟩ : ∃ k, n = k + 1 := ⟨n - 1, by omega⟩
    simp only [List.length_nil, Nat.add_zero, Nat.zero_add] at hs hv ⊢
    rw [strlenLoop, if_pos hv, if_pos hs]
  | cons c l ih =>
    intro a n ht hs hv hn
    obtain ⟨n, rfl⟩ : ∃ k, n = k + 1 := ⟨n - 1, by omega⟩
    simp only [List.length_cons] at hs hv hn ⊢
    obtain ⟨h1, h2⟩ := ht 0 c rfl
    rw [Nat.add_zero] at h2
    rw [strlenLoop, if_pos (Mem.valid_sub hv (Nat.le_refl _) (by omega)), if_neg (by rw [h2]; exact h1),
      ih (a + 1) n (fun i d hi => by
        have := ht (i + 1) d (by simpa using hi)
        rw [show a + 1 + i = a + (i + 1) by omega]
        exact this) (by rw [← hs]; congr 1; omega) (Mem.valid_sub hv (by omega) (by omega)) (by omega)]
    rfl

/-- Without a zero in the accessible memory `strlen` is undefined. -/
theorem strlen_ub {m : Mem} : ∀ (k a n : Nat), (∀ i < k, m.byte (a + i) ≠ 0) → ¬ m.valid (a + k) 1 →
    strlenLoop m a n = .ub := by
  intro k
  induction k with
  | zero =>
    intro a n _ hv
    cases n with
    | zero => rfl
    | succ n => rw [strlenLoop, if_neg (by simpa using hv)]
  | succ k ih =>
    intro a n hn hv
    cases n with
    | zero => rfl
    | succ n =>
      have h0 := hn 0 (by omega)
      rw [Nat.add_zero] at h0
      rw [strlenLoop, if_neg h0]
      split
      · rw [ih (a + 1) n (fun i hi => by
          have := hn (i + 1) (by omega)
          rwa [show a + 1 + i = a + (i + 1) by omega]) (by rwa [show a + 1 + k = a + (k + 1) by omega])]
        rfl
      · rfl

theorem CStr.length {m : Mem} {a : Nat} {l : List UInt8} (h : CStr m a l) : cstringLength m a = .ok l.length := by
  have := h.lim
  rw [cstringLength, if_pos h.nz, strlen_ok l a W h.txt h.stop h.val (by simp only [W]; omega)]

/-- The characters of a string object are a C string. -/
theorem StrAt.cstr {m : Mem} {p b cap : Nat} {l : List UInt8} (h : StrAt m p b cap l) : CStr m b l := by
  have hl := h.lt
  have hc := h.lim
  exact ⟨h.nz, Mem.valid_sub h.chars (Nat.le_refl _) (by omega), h.txt, h.rest _ (Nat.le_refl _) hl, by omega⟩

theorem Place.text {m : Mem} {p b cap : Nat} (h : Place m p b cap) : text m p = .ok b := by
  rw [Str.text, Mem.load64_ok h.al (Mem.valid_sub h.val (Nat.le_refl _) (by omega)), h.ptr]

theorem Place.capacity {m : Mem} {p b cap : Nat} (h : Place m p b cap) : capacity m p = .ok cap := by
  have := h.al
  rw [Str.capacity, Mem.load64_ok (by omega) (Mem.valid_sub h.val (by omega) (by omega)), h.room]

theorem Place.loadLength {m : Mem} {p b cap : Nat} (h : Place m p b cap) : m.load64 (p + 8) = .ok (m.word (p + 8)) := by
  have := h.al
  exact Mem.load64_ok (by omega) (Mem.valid_sub h.val (by omega) (by omega))

theorem Place.length {m : Mem} {p b cap : Nat} (h : Place m p b cap) :
    length m p = .ok (if m.word (p + 8) < cap then m.word (p + 8) else 0) := by
  have hc := h.capacity
  rw [Str.capacity] at hc
  have := h.nz
  rw [Str.length, h.text, Res.ok_bind, if_pos (by omega), h.loadLength, Res.ok_bind, hc]
  rfl

theorem StrAt.length {m : Mem} {p b cap : Nat} {l : List UInt8} (h : StrAt m p b cap l) :
    Str.length m p = .ok l.length := by
  rw [h.toPlace.length, h.len, if_pos h.lt]

theorem reverse_zeros {m : Mem} {a : Nat} : ∀ (n k : Nat), (∀ i, n < i → i ≤ n + k → m.byte (a + i) = 0) →
    m.valid a (n + k + 1) → reverseLoop m a (n + k) = reverseLoop m a n := by
  intro n k
  induction k with
  | zero => intros; rfl
  | succ k ih =>
    intro hz hv
    rw [← Nat.add_assoc, reverseLoop, if_pos (Mem.valid_sub hv (by omega) (by omega)),
      if_pos (hz _ (by omega) (by omega)), ih (fun i h1 h2 => hz i h1 (by omega)) (Mem.valid_sub hv (by omega) (by omega))]

/-- The length from behind is the index of the last character. -/
theorem StrAt.reverse {m : Mem} {p b cap : Nat} {l : List UInt8} (h : StrAt m p b cap l) :
    cstringLengthReverse m b cap = .ok (l.length - 1) := by
  have hl := h.lt
  rw [cstringLengthReverse, if_pos ⟨h.nz, by omega⟩]
  have e : cap - 1 = (l.length - 1) + (cap - 1 - (l.length - 1)) := by omega
  rw [e, reverse_zeros _ _ (fun i h1 h2 => h.rest i (by omega) (by omega)) (Mem.valid_sub h.chars (Nat.le_refl _) (by omega))]
  rcases Nat.eq_zero_or_pos (l.length - 1) with h0 | h0
  · rw [h0]; rfl
  · obtain ⟨n, hn⟩ : ∃ n, l.length - 1 = n + 1 := ⟨l.length - 2, by omega⟩
    have hlt : n + 1 < l.length := by omega
    obtain ⟨h1, h2⟩ := h.txt (n + 1) _ (List.getElem?_eq_getElem hlt)
    rw [hn, reverseLoop, if_pos (Mem.valid_sub h.chars (by omega) (by omega)), if_neg (by rw [h2]; exact h1)]

/-! ## Writing -/

/-- What writing `n` characters, zeros and the length does. -/
theorem Mem.move_zero_len (m : Mem) (d s : Nat) : m.move d s 0 = m := by
  have : ∀ x, ¬ (d ≤ x ∧ x < d + 0) := fun x => by omega
  simp only [Mem.move, this, if_false]

/-- The state after the characters `l` from `src` have been put behind the first `t.length` ones. -/
def written (m : Mem) (p b cap src : Nat) (t l : List UInt8) : Mem :=
  ((m.move (b + t.length) src l.length).zero (b + (t.length + l.length)) (cap - (t.length + l.length))).put (p + 8)
    (t.length + l.length)

theorem written_byte {m : Mem} {p b cap src : Nat} {t l : List UInt8} (hl : t.length + l.length < cap) {x : Nat}
    (h1 : x < b ∨ b + cap ≤ x) (h2 : x < p + 8 ∨ p + 16 ≤ x) : (written m p b cap src t l).byte x = m.byte x := by
  rw [written, Mem.byte_put_of_lt _ (by omega), Mem.byte_zero_out _ (by omega), Mem.byte_move_out _ (by omega)]

theorem Place.written {m : Mem} {p b cap src : Nat} {t l : List UInt8} (h : Place m p b cap) (ht : Text m b t)
    (hs : Text m src l) (hl : t.length + l.length < cap) : StrAt (written m p b cap src t l) p b cap (t ++ l) := by
  have hap := h.apart
  have hlim := h.lim
  have fr : ∀ x, (x < b ∨ b + cap ≤ x) → (x < p + 8 ∨ p + 16 ≤ x) → (Str.written m p b cap src t l).byte x = m.byte x :=
    fun x h1 h2 => written_byte hl h1 h2
  have hb : (Str.written m p b cap src t l).blocks = m.blocks := by simp only [Str.written, Mem.put_blocks, Mem.zero_blocks, Mem.move_blocks]
  refine ⟨⟨h.al, (Mem.valid_of_blocks hb).2 h.val, ?_, h.nz, ?_, (Mem.valid_of_blocks hb).2 h.chars, hap, hlim⟩, ?_,
    by simpa using hl, ?_, ?_⟩
  · exact (Mem.word_congr fun x h1 h2 => fr x (by omega) (by omega)).trans h.ptr
  · exact (Mem.word_congr fun x h1 h2 => fr x (by omega) (by omega)).trans h.room
  · rw [Str.written, List.length_append]
    exact Mem.word_put_same _ _ _ (by simp only [W]; omega)
  · intro i c hi
    have hlt := (List.getElem?_eq_some_iff.1 hi).1
    rw [List.length_append] at hlt
    have e1 : (Str.written m p b cap src t l).byte (b + i) = (m.move (b + t.length) src l.length).byte (b + i) := by
      rw [Str.written, Mem.byte_put_of_lt _ (by omega), Mem.byte_zero_out _ (by omega)]
    rw [e1]
    rcases Nat.lt_or_ge i t.length with h0 | h0
    · rw [List.getElem?_append_left h0] at hi
      rw [Mem.byte_move_out _ (by omega)]
      exact ht i c hi
    · rw [List.getElem?_append_right h0] at hi
      rw [Mem.byte_move_in _ (by omega), show b + i - (b + t.length) = i - t.length by omega]
      exact hs _ c hi
  · intro i h1 h2
    rw [List.length_append] at h1
    rw [Str.written, Mem.byte_put_of_lt _ (by omega), Mem.byte_zero_in _ (by omega)]

/-- The three writes of `NS(BufferStringObj_assign_cstring)` and `NS(BufferStringObj_append_cstring)`. -/
theorem Place.write {m : Mem} {p b cap src : Nat} {t l : List UInt8} (h : Place m p b cap)
    (hs : CStr m src l) (hd : disjoint src (l.length + 1) b cap) (hl : t.length + l.length < cap) :
    (do
      let m ← copyChars m (b + t.length) src l.length
      let m ← m.memzero (b + (t.length + l.length)) (cap - (t.length + l.length))
      let m ← setLength m p (t.length + l.length)
      return (m, b)) = Res.ok (Str.written m p b cap src t l, b) := by
  have hal := h.al
  have e1 : copyChars m (b + t.length) src l.length =
      Res.ok (m.move (b + t.length) src l.length) := by
    unfold copyChars
    by_cases h0 : 0 < l.length
    · rw [if_pos h0, Mem.memcpy, if_pos]
      refine ⟨Mem.valid_sub h.chars (by omega) (by omega), Mem.valid_sub hs.val (Nat.le_refl _) (by omega), ?_⟩
      simp only [disjoint] at hd
      omega
    · rw [if_neg h0, show l.length = 0 by omega, Mem.move_zero_len]
  rw [e1, Res.ok_bind, Mem.memzero_ok (by
    simp only [Mem.move_valid]; exact Mem.valid_sub h.chars (by omega) (by omega)), Res.ok_bind, setLength,
    Mem.store64_ok (by omega) (by
      simp only [Mem.zero_valid, Mem.move_valid]; exact Mem.valid_sub h.val (by omega) (by omega)), Res.ok_bind]
  rfl

/-! ## Strings in buffers -/

/-- Byte `j` of a handle with length `len` and capacity `cap`, where it is not part of the pointer. -/
def handleByte (len cap j : Nat) : UInt8 :=
  if j < 8 then 0 else if j < 16 then UInt8.ofNat (len / 256 ^ (j - 8)) else UInt8.ofNat (cap / 256 ^ (j - 16))

/-- A string object as an object of a buffer: length, capacity and characters. -/
def rawObj (len cap : Nat) (data : Nat → UInt8) : Obj :=
  ⟨65538, 24, [⟨0, 1, cap⟩], handleByte len cap, fun _ j => data j⟩

/-- The string `l` with capacity `cap`, as an object of a buffer. -/
def strObj (cap : Nat) (l : List UInt8) : Obj := rawObj l.length cap fun j => l.getD j 0

theorem byte_of_word {m : Mem} {a v : Nat} (h : m.word a = v) {i : Nat} (hi : i < 8) :
    m.byte (a + i) = UInt8.ofNat (v / 256 ^ i) := by
  have hv : v < W := by rw [← h]; exact Mem.word_lt m a
  have e : Mem.le m.byte a = Mem.le (m.put a v).byte a := by
    have := Mem.word_put_same m a v hv
    simp only [Mem.word] at this h
    rw [this, h]
  rw [Mem.le_inj e i hi]
  simp only [Mem.put]
  rw [if_pos (by omega), show a + i - a = i by omega]

theorem word_of_bytes {m : Mem} {a v : Nat} (hv : v < W) (h : ∀ i < 8, m.byte (a + i) = UInt8.ofNat (v / 256 ^ i)) :
    m.word a = v := by
  rw [← Mem.word_put_same m a v hv]
  refine Mem.word_eq_of_bytes fun i hi => ?_
  rw [h i hi]
  simp only [Mem.put]
  rw [if_pos (by omega), show a + i - a = i by omega]

theorem rawObj_plain {len cap : Nat} {data : Nat → UInt8} {j : Nat} : (rawObj len cap data).plain j ↔ 8 ≤ j := by
  simp only [Obj.plain, rawObj, List.mem_singleton, forall_eq]
  omega

theorem rawObj_ok {len cap : Nat} {data : Nat → UInt8} (hc : cap < 2 ^ 61) : (rawObj len cap data).Ok := by
  refine ⟨by simp [rawObj], by simp [rawObj], by simp [rawObj], (by decide : 65538 < W), ?_⟩
  simp only [rawObj, Obj.total, List.map_cons, List.map_nil, List.sum_cons, List.sum_nil, List.length_cons,
    List.length_nil]
  omega

/-- Where a string object of a buffer is and what is there. -/
structure InBuf (s : St) (i p len cap : Nat) (data : Nat → UInt8) : Prop where
  get : bufGetObject s i = .ok (s.buf.objectAddr + 24 * i)
  load : s.mem.load64 (s.buf.objectAddr + 24 * i) = .ok p
  filtered : objectBeginAddrFiltered s.mem s.buf.dataAddr i 65538 s.buf.slot = .ok p
  nz : p ≠ 0
  place : Place s.mem p (p + 24) cap
  len : s.mem.word (p + 8) = len
  data : ∀ j < cap, s.mem.byte (p + 24 + j) = data j
  inside : s.buf.dataAddr ≤ p ∧ p + 24 + cap ≤ s.buf.objectAddr
  pool : s.pool.buffer ≤ p ∧ p + 24 + cap ≤ s.pool.buffer + s.pool.capacity

theorem inBuf {s : St} {os : List Obj} {i len cap : Nat} {data : Nat → UInt8} (h : Reach s os)
    (hi : os[i]? = some (rawObj len cap data)) (hl : len < W) : ∃ p, InBuf s i p len cap data := by
  obtain ⟨c, k, g, rep⟩ := h.good
  obtain ⟨r, hri, ho, e1, e2, e3⟩ := g.places rep hi
  have hh := g.lay.head
  have fit := hh.fit
  have hL : c.len = 128 + 8 * c.slots + 24 * c.objs + 8 * c.dataptrs + 16 * c.garbage := rfl
  have hnz := hh.nzB
  have hal := hh.alB
  have leS : k.nS ≤ c.slots := hh.le.slots
  have leO : k.recs.length ≤ c.objs := hh.le.objs
  have hrec := g.lay.ok.rec_ok r (List.mem_of_getElem? hri)
  have hlim := ho.ok.lim
  have htot := roundUp_ge r.2.2
  rw [ho.size] at hrec htot
  have et : (rawObj len cap data).total = 24 + (cap + 7) / 8 * 8 := by
    simp only [rawObj, Obj.total, List.map_cons, List.map_nil, List.sum_cons, List.sum_nil]
    omega
  rw [et] at hrec hlim htot
  simp only [rawObj, List.length_cons, List.length_nil] at hlim
  have e4 : s.mem.load64 (s.buf.dataAddr + 80 + r.1) = .ok (s.buf.dataAddr + 80 + r.1 + 24) := by
    have := e3 0 ⟨0, 1, cap⟩ rfl
    simpa [rawObj, roundUp_8, extSum] using this
  have hin : s.buf.dataAddr ≤ s.buf.dataAddr + 80 + r.1 ∧
      s.buf.dataAddr + 80 + r.1 + 24 + cap ≤ s.buf.dataAddr + s.buf.capacity := by omega
  have val : ∀ x n, x + n ≤ s.buf.capacity → s.mem.valid (s.buf.dataAddr + x) n := fun x n hx =>
    Mem.valid_sub hh.val (by omega) (by omega)
  have by1 : ∀ j, 8 ≤ j → j < 24 → s.mem.byte (s.buf.dataAddr + 80 + r.1 + j) = handleByte len cap j := by
    intro j h1 h2
    obtain ⟨b1, b2⟩ := ho.bytes j h2 (rawObj_plain.2 h1)
    have := ho.fits
    simp only [rawObj] at this
    have d := g.lay.data (r.1 + j) (by omega) b1
    rw [b2] at d
    rw [show s.buf.dataAddr + 80 + r.1 + j = s.buf.dataAddr + (80 + (r.1 + j)) by omega, d]
    rfl
  refine ⟨s.buf.dataAddr + 80 + r.1, e1, e2, ?_, by omega, ⟨by omega, ?_, ?_, by omega, ?_, ?_, by omega, by omega⟩,
    ?_, ?_, by rw [g.objs]; simp only [off]; omega, by rw [g.pbuf]; have := g.pcap; omega⟩
  · have hlt : i < k.recs.length := (List.getElem?_eq_some_iff.1 hri).1
    have hobj := g.objs
    unfold objectBeginAddrFiltered
    have hp : sectionPtr s.mem s.buf.dataAddr 4 8 = .ok (s.buf.dataAddr + off c 4) := hh.sectionPtr (by omega) (by omega)
    have hd : sectionData s.mem s.buf.dataAddr 4 8 = .ok (s.buf.objectAddr) := by
      unfold sectionData
      rw [hp, Res.ok_bind, Res.pure_eq, if_pos (by omega), hobj]
      rfl
    rw [g.slot, hd, Res.ok_bind, if_pos ⟨by rw [hobj]; omega, by omega⟩, numObjects,
      hh.numEntities (id := 4) (by omega) (by omega), Res.ok_bind,
      if_pos (show i < cnt k.counts 4 from hlt)]
    have w2 := (g.lay.recs i r hri).2.1
    rw [hobj, show s.buf.dataAddr + (off c 4 + 16) + 24 * i + 8 = s.buf.dataAddr + (off c 4 + 16 + 24 * i + 8) by omega,
      Mem.load64_ok (by simp only [off]; omega) (val _ _ (by simp only [off]; omega)), w2, Res.ok_bind,
      if_pos (show r.2.1 = 65538 from ho.typ),
      ← hobj, e2]
  · rw [show s.buf.dataAddr + 80 + r.1 = s.buf.dataAddr + (80 + r.1) by omega]
    exact val _ _ (by omega)
  · exact (Mem.load64_eq_ok e4).2.2
  · refine word_of_bytes (by simp only [W]; omega) fun n hn => ?_
    rw [Nat.add_assoc _ 16, by1 _ (by omega) (by omega), handleByte, if_neg (by omega), if_neg (by omega),
      show 16 + n - 16 = n by omega]
  · rw [show s.buf.dataAddr + 80 + r.1 + 24 = s.buf.dataAddr + (80 + r.1 + 24) by omega]
    exact val _ _ (by omega)
  · refine word_of_bytes hl fun n hn => ?_
    rw [Nat.add_assoc _ 8, by1 _ (by omega) (by omega), handleByte, if_neg (by omega), if_pos (by omega),
      show 8 + n - 8 = n by omega]
  · intro j hj
    obtain ⟨d1, d2, d3⟩ := (ho.attrs 0 ⟨0, 1, cap⟩ rfl).2 j (by simpa [AttrSpec.bytes] using hj)
    have d := g.lay.data _ d1 d2
    rw [d3] at d
    rw [show data j = (rawObj len cap data).data ⟨0, 1, cap⟩ j from rfl, ← d]
    congr 1
    simp only [rawObj, roundUp_8, extSum, List.take_zero, List.map_nil, List.sum_nil]
    omega

/-- Changing length and characters of a string object in place. -/
theorem InBuf.change {s : St} {os : List Obj} {i p len len' cap : Nat} {data data' : Nat → UInt8} {m' : Mem} (h : Reach s os)
    (hi : os[i]? = some (rawObj len cap data)) (hp : InBuf s i p len cap data) (hb : m'.blocks = s.mem.blocks)
    (hf : ∀ x, (x < p + 8 ∨ p + 24 + cap ≤ x) → m'.byte x = s.mem.byte x)
    (hl : m'.word (p + 8) = len') (hc : m'.word (p + 16) = cap) (hd : ∀ j < cap, m'.byte (p + 24 + j) = data' j) :
    Reach { s with mem := m' } (os.set i (rawObj len' cap data')) ∧ InBuf { s with mem := m' } i p len' cap data' := by
  have e1 := hp.get
  have e2 := hp.load
  have hin := hp.inside
  suffices hr : Reach { s with mem := m' } (os.set i (rawObj len' cap data')) by
    refine ⟨hr, ?_⟩
    have hlt := (List.getElem?_eq_some_iff.1 hi).1
    obtain ⟨p', hp'⟩ := inBuf hr (i := i) (len := len') (cap := cap) (data := data') (List.getElem?_set_self hlt)
      (by rw [← hl]; exact Mem.word_lt _ _)
    have e4 : m'.load64 (s.buf.objectAddr + 24 * i) = .ok p := by
      obtain ⟨a1, a2, a3⟩ := Mem.load64_eq_ok e2
      rw [Mem.load64_ok a1 ((Mem.valid_of_blocks hb).2 a2), ← a3]
      exact congrArg _ (Mem.word_congr fun x h1 h2 => hf x (by omega))
    have e5 : m'.load64 (s.buf.objectAddr + 24 * i) = .ok p' := hp'.load
    rw [e4] at e5
    obtain rfl := Res.ok.inj e5
    exact hp'
  have e3 : s.mem.load64 (p + 0) = .ok (p + 24) := hp.place.text
  refine h.change hi hb (fun x hx => hf x ?_) ⟨rfl, rfl, rfl⟩ ?_
  · refine Classical.byContradiction fun hn => hx ⟨_, p, e1, e2, ?_⟩
    rcases Nat.lt_or_ge x (p + 24) with h0 | h0
    · exact Or.inl ⟨x - p, by simp only [rawObj]; omega, rawObj_plain.2 (by omega), by omega⟩
    · exact Or.inr ⟨⟨0, 1, cap⟩, by simp [rawObj], p + 24, e3, x - (p + 24), by dsimp only; omega, by omega⟩
  · intro r' p' e1' e2'
    rw [e1] at e1'
    obtain rfl := Res.ok.inj e1'
    rw [e2] at e2'
    obtain rfl := Res.ok.inj e2'
    refine ⟨fun j hj hpl => ?_, fun a ha q hq j hj => ?_⟩
    · have h8 := rawObj_plain.1 hpl
      have hj : j < 24 := hj
      simp only [rawObj, handleByte, if_neg (show ¬ j < 8 by omega)]
      split
      · rw [← byte_of_word hl (by omega)]; congr 1; omega
      · rw [← byte_of_word hc (by omega)]; congr 1; omega
    · simp only [rawObj, List.mem_singleton] at ha
      subst ha
      rw [e3] at hq
      obtain rfl := Res.ok.inj hq
      exact (hd j (by dsimp only at hj; omega)).symm

/-- What the client has outside of the buffer and of the local variable is kept. -/
def KeepsClient (s s' : St) (tmp : Nat) : Prop :=
  ∀ x n, s.mem.ext s.pool.buffer x n → disjoint x n tmp 24 → s'.mem.ext s'.pool.buffer x n ∧
    ∀ j < n, s'.mem.byte (x + j) = s.mem.byte (x + j)

/-- Changes in a string of the buffer do not concern the client. -/
theorem KeepsClient.inside {s s' : St} {tmp i q len cap : Nat} {data : Nat → UInt8} {m' : Mem} (h : KeepsClient s s' tmp)
    (hp : InBuf s' i q len cap data) (hw : s'.mem.Wf) (hb : (s'.pool.buffer, s'.pool.capacity) ∈ s'.mem.blocks)
    (hb' : m'.blocks = s'.mem.blocks) (hf : ∀ x, (x < q + 8 ∨ q + 24 + cap ≤ x) → m'.byte x = s'.mem.byte x) :
    KeepsClient s { s' with mem := m' } tmp := by
  intro x n hx hd
  obtain ⟨h1, h2⟩ := h x n hx hd
  have hpl := hp.pool
  have hout := h1.outside hw hb
  refine ⟨by simpa only [Mem.ext, hb'] using h1, fun j hj => ?_⟩
  rw [← h2 j hj]
  exact hf _ (by omega)

/-- Filling the local variable and adding it. -/
theorem addLocal_spec {malloc : Nat → Nat} {s : St} {os : List Obj} {tmp b l c : Nat} {data : Nat → UInt8} {c0 : Caps}
    {k0 : Content} (h : Reach s os) (g0 : Good s c0 k0) (rep0 : Represents k0 os)
    (hm : MallocOk malloc s.mem) (hal : tmp % 8 = 0) (hnz : tmp ≠ 0) (ht : s.mem.ext s.pool.buffer tmp 24)
    (hl : l < W) (hc : c < 2 ^ 61) (hbW : b < W)
    (hb : (b = 0 ∧ ∀ j < c, data j = 0) ∨ (b ≠ 0 ∧ s.mem.ext s.pool.buffer b c ∧ disjoint b c tmp 24 ∧
      ∀ j < c, s.mem.byte (b + j) = data j)) :
    ∃ s' q, addLocal malloc s tmp b l c = .ok (s', q) ∧ (q = 0 ∨
      (Reach s' (os ++ [rawObj l c data]) ∧ InBuf s' os.length q l c data ∧
        KeepsClient s s' tmp)) ∧
      (k0.room c0 24 [⟨0, 1, c⟩] → q ≠ 0) := by
  have htv := ht.valid
  have hblk : (s.pool.buffer, s.pool.capacity) ∈ s.mem.blocks := by rw [g0.pbuf]; exact g0.blk
  have hto := ht.outside g0.wf hblk
  let m1 := ((s.mem.put tmp b).put (tmp + 8) l).put (tmp + 16) c
  have hb1 : m1.blocks = s.mem.blocks := by simp only [m1, Mem.put_blocks]
  have hf1 : ∀ x, (x < tmp ∨ tmp + 24 ≤ x) → m1.byte x = s.mem.byte x := fun x hx => by
    simp only [m1]
    rw [Mem.byte_put_of_lt _ (by omega), Mem.byte_put_of_lt _ (by omega), Mem.byte_put_of_lt _ (by omega)]
  have w0 : m1.word tmp = b := by
    simp only [m1]
    rw [Mem.word_put_other _ (by omega), Mem.word_put_other _ (by omega), Mem.word_put_same _ _ _ hbW]
  have w1 : m1.word (tmp + 8) = l := by
    simp only [m1]
    rw [Mem.word_put_other _ (by omega), Mem.word_put_same _ _ _ hl]
  have w2 : m1.word (tmp + 16) = c := by
    simp only [m1]
    rw [Mem.word_put_same _ _ _ (by simp only [W]; omega)]
  have hw1 : m1.Wf := by intro x hx y hy; rw [hb1] at hx hy; exact g0.wf x hx y hy
  have hf2 : ∀ x, s.pool.buffer ≤ x → x < s.pool.buffer + s.pool.capacity → m1.byte x = s.mem.byte x :=
    fun x h1 h2 => hf1 x (by omega)
  have r1 : Reach { s with mem := m1 } os := h.other hw1 (by rw [hb1]; exact hblk) hf2
  have g1 : Good { s with mem := m1 } c0 k0 :=
    g0.outside hw1 (by rw [hb1]; exact g0.blk) (by rw [g0.pbuf] at hf2; exact hf2)
  have hext : ∀ x n, s.mem.ext s.pool.buffer x n → m1.ext s.pool.buffer x n := fun x n hx => by
    simpa only [Mem.ext, hb1] using hx
  have hg : Given { s with mem := m1 } tmp (rawObj l c data) := by
    refine ⟨hnz, hext _ _ ht, fun j hj hpl => ?_, fun a ha => ?_⟩
    · have h8 := rawObj_plain.1 hpl
      have hj : j < 24 := hj
      simp only [rawObj, handleByte, if_neg (show ¬ j < 8 by omega)]
      split
      · rw [← byte_of_word w1 (by omega)]; congr 1; omega
      · rw [← byte_of_word w2 (by omega)]; congr 1; omega
    · simp only [rawObj, List.mem_singleton] at ha
      subst ha
      simp only [Nat.add_zero, w0, Nat.mul_one, rawObj]
      rcases hb with ⟨h0, h1⟩ | ⟨h0, h1, h2, h3⟩
      · exact Or.inl ⟨h0, h1⟩
      · refine Or.inr ⟨h0, hext _ _ h1, fun j hj => ?_⟩
        rw [hf1 _ (by simp only [disjoint] at h2; omega), h3 j hj]
  have hm1 : MallocOk malloc m1 := by simpa only [MallocOk, hb1] using hm
  obtain ⟨s', r, e, hr, hroom⟩ := r1.add_spec g1 rep0 hm1 (rawObj_ok hc) hg
  have e0 : addLocal malloc s tmp b l c = (do let q ← beginAddr s'.mem r; return (s', q)) := by
    unfold addLocal
    rw [Mem.store64_ok hal (Mem.valid_sub htv (by omega) (by omega)), Res.ok_bind,
      Mem.store64_ok (by omega) (by simp only [Mem.put_valid]; exact Mem.valid_sub htv (by omega) (by omega)), Res.ok_bind,
      Mem.store64_ok (by omega) (by simp only [Mem.put_valid]; exact Mem.valid_sub htv (by omega) (by omega)), Res.ok_bind,
      g0.slot]
    have : attrs c 8 = (rawObj l c data).attrs := rfl
    rw [this]
    have e' : addObject malloc { s with mem := m1 } tmp 24 65538 (rawObj l c data).attrs = .ok (s', r) := e
    rw [show ((s.mem.put tmp b).put (tmp + 8) l).put (tmp + 16) c = m1 from rfl, e']
    rfl
  rw [e0]
  rcases hr with rfl | ⟨hr0, rr, hget, kp⟩
  · exact ⟨s', 0, rfl, Or.inl rfl, fun h0 => absurd rfl (hroom h0)⟩
  · obtain ⟨p, hp⟩ := inBuf rr (i := os.length) (len := l) (cap := c) (data := data) (by simp) hl
    have e1 := hp.get
    rw [hget] at e1
    obtain rfl := Res.ok.inj e1
    rw [beginAddr, if_neg hr0, hp.load]
    refine ⟨s', p, rfl, Or.inr ⟨rr, hp, fun x n hx hd => ⟨kp.ext x n (hext x n hx), fun j hj => ?_⟩⟩, fun _ => hp.nz⟩
    rw [kp.byte (x + j) ?_]
    · exact hf1 _ (by simp only [disjoint] at hd; omega)
    · rcases hx with h0 | ⟨B, hB, h1, h2, h3⟩
      · omega
      · exact Or.inr ⟨B, by rw [hb1]; exact hB, h1, by omega, by omega⟩

/-- The characters of the client: a C string outside of the buffer and of the local variable, or null for the empty
string. -/
def Input (s : St) (tmp src : Nat) (t : List UInt8) : Prop :=
  (src = 0 ∧ t = []) ∨
    (CStr s.mem src t ∧ s.mem.ext s.pool.buffer src (t.length + 1) ∧ disjoint src (t.length + 1) tmp 24)

theorem Input.length {s : St} {tmp src : Nat} {t : List UInt8} (h : Input s tmp src t) :
    inputLength s.mem src = Res.ok t.length := by
  unfold inputLength
  rcases h with ⟨rfl, rfl⟩ | ⟨h, -⟩
  · rfl
  · rw [if_pos h.nz, h.length]

/-- The new string is filled with zeros, or with the characters and zeros. -/
theorem fill_spec {s : St} {os : List Obj} {i q cap src : Nat} {data : Nat → UInt8} {t : List UInt8} (h : Reach s os)
    (hi : os[i]? = some (rawObj 0 cap data)) (hp : InBuf s i q 0 cap data) (hv : s.mem.valid src t.length)
    (hx : Text s.mem src t) (hd : disjoint src t.length (q + 24) cap) (ht : t.length ≤ cap) :
    ∃ m', fill s.mem q src t.length cap = .ok m' ∧ Reach { s with mem := m' } (os.set i (strObj cap t)) ∧
      (InBuf { s with mem := m' } i q t.length cap fun j => t.getD j 0) ∧ m'.blocks = s.mem.blocks ∧
      ∀ x, (x < q + 8 ∨ q + 24 + cap ≤ x) → m'.byte x = s.mem.byte x := by
  have hal := hp.place.al
  have hlim := hp.place.lim
  have hval := hp.place.val
  refine ⟨(((s.mem.move (q + 24) src t.length).zero (q + 24 + t.length) (cap - t.length)).put (q + 8) t.length).put
    (q + 16) cap, ?_, ?_⟩
  · unfold fill setLength setCapacity
    rw [hp.place.text, Res.ok_bind, Mem.memcpy, if_pos ⟨Mem.valid_sub hp.place.chars (by omega) (by omega), hv, by
      simp only [disjoint] at hd; omega⟩, Res.ok_bind, Mem.memzero_ok (by
        simp only [Mem.move_valid]; exact Mem.valid_sub hp.place.chars (by omega) (by omega)), Res.ok_bind,
      Mem.store64_ok (by omega) (by
        simp only [Mem.zero_valid, Mem.move_valid]; exact Mem.valid_sub hval (by omega) (by omega)), Res.ok_bind,
      Mem.store64_ok (by omega) (by
        simp only [Mem.put_valid, Mem.zero_valid, Mem.move_valid]; exact Mem.valid_sub hval (by omega) (by omega))]
  · have hb : ((((s.mem.move (q + 24) src t.length).zero (q + 24 + t.length) (cap - t.length)).put (q + 8) t.length).put
        (q + 16) cap).blocks = s.mem.blocks := by simp only [Mem.put_blocks, Mem.zero_blocks, Mem.move_blocks]
    have hf : ∀ x, (x < q + 8 ∨ q + 24 + cap ≤ x) → ((((s.mem.move (q + 24) src t.length).zero (q + 24 + t.length)
        (cap - t.length)).put (q + 8) t.length).put (q + 16) cap).byte x = s.mem.byte x := fun x hx => by
      rw [Mem.byte_put_of_lt _ (by omega), Mem.byte_put_of_lt _ (by omega), Mem.byte_zero_out _ (by omega),
        Mem.byte_move_out _ (by omega)]
    refine (fun hr => ⟨hr.1, hr.2, hb, hf⟩) (hp.change h hi hb hf ?_ ?_ fun j hj => ?_)
    · rw [Mem.word_put_other _ (by omega), Mem.word_put_same _ _ _ (by simp only [W]; omega)]
    · rw [Mem.word_put_same _ _ _ (by simp only [W]; omega)]
    · rw [Mem.byte_put_of_lt _ (by omega), Mem.byte_put_of_lt _ (by omega)]
      rcases Nat.lt_or_ge j t.length with h0 | h0
      · rw [Mem.byte_zero_out _ (by omega), Mem.byte_move_in _ (by omega), Nat.add_sub_cancel_left,
          (hx j _ (List.getElem?_eq_getElem h0)).2, List.getD, List.getElem?_eq_getElem h0]
        rfl
      · rw [Mem.byte_zero_in _ (by omega), List.getD, List.getElem?_eq_none (by omega)]
        rfl

/-- `NS(BufferStringObj_add)`. -/
theorem add_spec {malloc : Nat → Nat} {s : St} {os : List Obj} {tmp src n : Nat} {t : List UInt8} {c0 : Caps}
    {k0 : Content} (h : Reach s os) (g0 : Good s c0 k0) (rep0 : Represents k0 os)
    (hm : MallocOk malloc s.mem) (hal : tmp % 8 = 0) (hnz : tmp ≠ 0) (ht : s.mem.ext s.pool.buffer tmp 24)
    (hn : n + 1 < 2 ^ 61) (hs : Input s tmp src t) :
    ∃ s' q, add malloc s tmp src n = .ok (s', q) ∧ (n + 1 < t.length → s' = s ∧ q = 0) ∧
      (q = 0 ∨ (t.length ≤ n + 1 ∧ Reach s' (os ++ [strObj (n + 1) t]) ∧
        (InBuf s' os.length q t.length (n + 1) fun j => t.getD j 0) ∧ KeepsClient s s' tmp)) ∧
      (t.length ≤ n + 1 → k0.room c0 24 [⟨0, 1, n + 1⟩] → q ≠ 0) := by
  have hW : (n + 1) % W = n + 1 := Nat.mod_eq_of_lt (by simp only [W]; omega)
  unfold add
  simp only [hW]
  rw [hs.length, Res.ok_bind]
  by_cases hlt : n + 1 < t.length
  · rw [if_neg (by omega), if_neg (by
      rintro ⟨-, h0 | h0⟩
      · rcases hs with ⟨-, rfl⟩ | ⟨hc, -⟩
        · simp at hlt
        · exact hc.nz h0
      · omega)]
    exact ⟨s, 0, rfl, fun _ => ⟨rfl, rfl⟩, Or.inl rfl, fun h0 => absurd h0 (by omega)⟩
  have hlim : t.length < W := by simp only [W]; omega
  unfold new
  rw [hW]
  obtain ⟨s1, q, e, hq, hroom⟩ := addLocal_spec (data := fun _ => 0) (b := 0) (l := 0) h g0 rep0 hm hal hnz ht (by decide) hn (by decide)
    (Or.inl ⟨rfl, fun _ _ => rfl⟩)
  rw [e]
  simp only [Res.ok_bind]
  have hsrc : src ≠ 0 ∨ t = [] := by
    rcases hs with ⟨-, h0⟩ | ⟨h0, -⟩
    · exact Or.inr h0
    · exact Or.inl h0.nz
  have cond : ¬ (src ≠ 0 ∧ 0 < t.length ∧ t.length ≤ n + 1) → 0 < n + 1 ∧ (src = 0 ∨ t.length = 0) := by
    intro h0
    refine ⟨by omega, ?_⟩
    omega
  by_cases hA : src ≠ 0 ∧ 0 < t.length ∧ t.length ≤ n + 1
  · rw [if_pos hA]
    by_cases hq0 : q = 0
    · exact ⟨s1, 0, by rw [if_neg (by omega)]; rfl, fun h0 => absurd h0 hlt, Or.inl rfl, fun _ h0 => absurd hq0 (hroom h0)⟩
    obtain ⟨r1, ib, keep⟩ := hq.resolve_left hq0
    obtain ⟨c1, k1, g1, -⟩ := r1.good
    rcases hs with ⟨h0, -⟩ | ⟨hc, hx, hd⟩
    · exact absurd h0 hA.1
    · obtain ⟨x1, x2⟩ := keep _ _ hx hd
      have hout := x1.outside g1.wf (by rw [g1.pbuf]; exact g1.blk)
      have hpl := ib.pool
      obtain ⟨m', e1, e2, e3, e4, e5⟩ := fill_spec r1 (i := os.length) (by simp) ib (src := src) (t := t)
        (Mem.valid_sub x1.valid (Nat.le_refl _) (by omega))
        (hc.txt.congr fun x h1 h2 => by have := x2 (x - src) (by omega); rwa [show src + (x - src) = x by omega] at this)
        (by simp only [disjoint]; omega) hA.2.2
      refine ⟨{ s1 with mem := m' }, q, by rw [if_pos hq0, e1]; rfl, fun h0 => absurd h0 hlt, Or.inr ⟨by omega, ?_, e3,
        keep.inside ib g1.wf (by rw [g1.pbuf]; exact g1.blk) e4 e5⟩, fun _ _ => hq0⟩
      simpa using e2
  · rw [if_neg hA, if_pos (cond hA)]
    by_cases hq0 : q = 0
    · exact ⟨s1, 0, by rw [if_neg (by omega)]; rfl, fun h0 => absurd h0 hlt, Or.inl rfl, fun _ h0 => absurd hq0 (hroom h0)⟩
    obtain ⟨r1, ib, keep⟩ := hq.resolve_left hq0
    obtain ⟨c1, k1, g1, -⟩ := r1.good
    have ht0 : t = [] := by
      rcases hs with ⟨-, h0⟩ | ⟨hc, -⟩
      · exact h0
      · have := (cond hA).2.resolve_left hc.nz
        exact List.length_eq_zero_iff.1 this
    subst ht0
    have hval := ib.place.val
    have hal1 := ib.place.al
    have e0 : (do
        let out ← text s1.mem q
        let m ← s1.mem.memzero out (n + 1)
        let m ← setCapacity m q (n + 1)
        return (({ s1 with mem := m }, q) : St × Nat)) =
        Res.ok (({ s1 with mem := (s1.mem.zero (q + 24) (n + 1)).put (q + 16) (n + 1) }, q) : St × Nat) := by
      unfold setCapacity
      rw [ib.place.text, Res.ok_bind, Mem.memzero_ok ib.place.chars, Res.ok_bind, Mem.store64_ok (by omega) (by
        simp only [Mem.zero_valid]; exact Mem.valid_sub hval (by omega) (by omega))]
      rfl
    have hb : ((s1.mem.zero (q + 24) (n + 1)).put (q + 16) (n + 1)).blocks = s1.mem.blocks := by
      simp only [Mem.put_blocks, Mem.zero_blocks]
    have hf : ∀ x, (x < q + 8 ∨ q + 24 + (n + 1) ≤ x) →
        ((s1.mem.zero (q + 24) (n + 1)).put (q + 16) (n + 1)).byte x = s1.mem.byte x :=
      fun x hx => by rw [Mem.byte_put_of_lt _ (by omega), Mem.byte_zero_out _ (by omega)]
    obtain ⟨e2, e3⟩ := ib.change r1 (by simp) (m' := (s1.mem.zero (q + 24) (n + 1)).put (q + 16) (n + 1)) (len' := 0)
      (data' := fun j => ([] : List UInt8).getD j 0) hb hf
      (by
        rw [Mem.word_put_other _ (by omega), ← ib.len]
        exact Mem.word_congr fun x h1 h2 => Mem.byte_zero_out _ (by omega))
      (by rw [Mem.word_put_same _ _ _ (by simp only [W]; omega)])
      (fun j hj => by rw [Mem.byte_put_of_lt _ (by omega), Mem.byte_zero_in _ (by omega)]; rfl)
    refine ⟨_, q, by rw [if_pos hq0]; exact e0, fun h0 => absurd h0 hlt, Or.inr ⟨by simp, ?_, e3,
      keep.inside ib g1.wf (by rw [g1.pbuf]; exact g1.blk) hb hf⟩, fun _ _ => hq0⟩
    simpa [strObj] using e2

/-- A string of a buffer which has room for the terminating zero. -/
theorem InBuf.str {s : St} {i p cap : Nat} {t : List UInt8} (h : InBuf s i p t.length cap fun j => t.getD j 0)
    (ht : ∀ c ∈ t, c ≠ 0) (hl : t.length < cap) : StrAt s.mem p (p + 24) cap t := by
  refine ⟨h.place, h.len, hl, fun i c hi => ⟨ht c (List.mem_of_getElem? hi), ?_⟩, fun i h1 h2 => ?_⟩
  · have hlt := (List.getElem?_eq_some_iff.1 hi).1
    rw [h.data i (by omega), List.getD, hi]
    rfl
  · rw [h.data i h2, List.getD, List.getElem?_eq_none (by omega)]
    rfl

end SixTrack.Buf.Str
