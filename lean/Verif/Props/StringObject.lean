import Verif.Buffer.StrLemmas
import Verif.Buffer.Witness
import Verif.Props.Buffer

/-!
# Property C69: string objects hold the string that was assigned

The model is `Verif.Buffer.Str`.  In the theorems `StrAt m p b cap l` says that there is a handle at `p` with
the length of `l` and the capacity `cap`, whose characters at `b` are those of `l` followed by zeros; `CStr m a l` says
that `a` is a zero-terminated string with the characters `l`.
-/

namespace SixTrack

open Buf Buf.Str

/-- The bytes which a function that writes to the string at `p` may change. -/
def StrFrame (m m' : Mem) (p b cap : Nat) : Prop :=
  m'.blocks = m.blocks ∧ ∀ x, (x < b ∨ b + cap ≤ x) → (x < p + 8 ∨ p + 16 ≤ x) → m'.byte x = m.byte x

/-! ## A string "ab" with eight characters, and the C string "cd" -/

/-- The handle is at 4096, the characters at 4120, and the C string is at 4160. -/
def abMem : Mem :=
  ((Mem.put ⟨[(4096, 128)], fun x => if x = 4120 then 97 else if x = 4121 then 98 else if x = 4160 then 99 else
    if x = 4161 then 100 else 0⟩ 4096 4120).put 4104 2).put 4112 8

theorem abMem_byte {x : Nat} (h : 4120 ≤ x) : abMem.byte x =
    if x = 4120 then 97 else if x = 4121 then 98 else if x = 4160 then 99 else if x = 4161 then 100 else 0 := by
  unfold abMem
  rw [Mem.byte_put_of_lt _ (by omega), Mem.byte_put_of_lt _ (by omega), Mem.byte_put_of_lt _ (by omega)]

theorem abMem_valid {a n : Nat} (h1 : 4096 ≤ a) (h2 : a + n ≤ 4224) : abMem.valid a n :=
  Or.inr ⟨(4096, 128), by simp [abMem], h1, h2⟩

theorem abMem_place : Place abMem 4096 4120 8 := by
  refine ⟨by decide, abMem_valid (by omega) (by omega), ?_, by decide, ?_, abMem_valid (by omega) (by omega), by decide,
    by decide⟩
  · unfold abMem
    rw [Mem.word_put_other _ (by omega), Mem.word_put_other _ (by omega), Mem.word_put_same _ _ _ (by decide)]
  · unfold abMem
    rw [Mem.word_put_same _ _ _ (by decide)]

theorem abMem_str : StrAt abMem 4096 4120 8 [97, 98] := by
  refine ⟨abMem_place, ?_, by decide, ?_, ?_⟩
  · unfold abMem
    rw [Mem.word_put_other _ (by omega), Mem.word_put_same _ _ _ (by decide)]
    rfl
  · intro i c hi
    rw [abMem_byte (by omega)]
    match i, hi with
    | 0, hi => simp at hi; subst hi; decide
    | 1, hi => simp at hi; subst hi; decide
    | n + 2, hi => simp at hi
  · intro i h1 h2
    have h1 : 2 ≤ i := h1
    rw [abMem_byte (by omega), if_neg (by omega), if_neg (by omega), if_neg (by omega), if_neg (by omega)]

theorem abMem_cd : CStr abMem 4160 [99, 100] := by
  refine ⟨by decide, abMem_valid (by omega) (by simp), ?_, ?_, by decide⟩
  · intro i c hi
    rw [abMem_byte (by omega)]
    match i, hi with
    | 0, hi => simp at hi; subst hi; decide
    | 1, hi => simp at hi; subst hi; decide
    | n + 2, hi => simp at hi
  · rw [abMem_byte (by omega)]; rfl

theorem abMem_empty : CStr abMem 4170 [] := by
  refine ⟨by decide, abMem_valid (by omega) (by simp), ?_, ?_, by decide⟩
  · intro i c hi
    simp at hi
  · rw [abMem_byte (by omega)]; rfl

/-! ## Lengths -/

/-- **C69** (lengths). The length is that of the string, also if the characters are counted; the maximal length leaves
room for the terminating zero, and the available length is what can be appended. -/
theorem C69_length {m : Mem} {p b cap : Nat} {l : List UInt8} (h : StrAt m p b cap l) :
    length m p = .ok l.length ∧ text m p = .ok b ∧ cstringLength m b = .ok l.length ∧ capacity m p = .ok cap ∧
      maxLength m p = .ok (cap - 1) ∧ availableLength m p = .ok (cap - 1 - l.length) := by
  have hlt := h.lt
  have hlim := h.lim
  have hnz := h.nz
  refine ⟨h.length, h.text, h.cstr.length, h.toPlace.capacity, ?_, ?_⟩
  · rw [maxLength, h.toPlace.capacity, Res.ok_bind, h.text, Res.ok_bind, Res.pure_eq]
    split <;> congr 1
    omega
  · rw [availableLength, h.toPlace.capacity, Res.ok_bind, h.length, Res.ok_bind, h.text, Res.ok_bind, Res.pure_eq]
    rw [Nat.mod_eq_of_lt (by simp only [W]; omega)]
    split <;> congr 1 <;> omega

example : length abMem 4096 = .ok 2 ∧ maxLength abMem 4096 = .ok 7 ∧ availableLength abMem 4096 = .ok 5 := by
  obtain ⟨h1, -, -, -, h2, h3⟩ := C69_length abMem_str
  exact ⟨h1, h2, h3⟩

/-- **C69** (assertion; violated). In debug builds the length function compares the stored length with a length
that is counted from the end of the characters if it is 1024 or more.  That one is too small by one, so the
assertion fails for every such string. -/
theorem C69_assertion_violated {m : Mem} {p b cap : Nat} {l : List UInt8} (h : StrAt m p b cap l) :
    lengthAssertion m p = .ok (decide (l.length < 1024)) := by
  rw [lengthAssertion, h.toPlace.loadLength, Res.ok_bind, h.text, Res.ok_bind, h.len]
  by_cases hl : l.length < 1024
  · rw [if_pos hl, h.cstr.length, Res.ok_bind, Res.pure_eq]
    simp [hl]
  · rw [if_neg hl, h.toPlace.capacity, Res.ok_bind, h.reverse, Res.ok_bind, Res.pure_eq]
    congr 1
    simp only [hl, decide_false, decide_eq_false_iff_not]
    omega

example : ∃ (m : Mem) (p b cap : Nat) (l : List UInt8), StrAt m p b cap l ∧ 1024 ≤ l.length := by
  let m : Mem := ((Mem.put ⟨[(4096, 4096)], fun x => if x < 4120 + 1024 then 97 else 0⟩ 4096 4120).put 4104 1024).put 4112 2048
  have hby : ∀ x, 4120 ≤ x → m.byte x = if x < 4120 + 1024 then 97 else 0 := fun x hx => by
    simp only [m]
    rw [Mem.byte_put_of_lt _ (by omega), Mem.byte_put_of_lt _ (by omega), Mem.byte_put_of_lt _ (by omega)]
  have hv : ∀ a n, 4096 ≤ a → a + n ≤ 8192 → m.valid a n := fun a n h1 h2 => Or.inr ⟨(4096, 4096), by simp [m], h1, h2⟩
  refine ⟨m, 4096, 4120, 2048, List.replicate 1024 97, ⟨⟨by decide, hv _ _ (by omega) (by omega), ?_, by decide, ?_,
    hv _ _ (by omega) (by omega), by decide, by decide⟩, ?_, by rw [List.length_replicate]; decide, ?_, ?_⟩, by rw [List.length_replicate]⟩
  · simp only [m]
    rw [Mem.word_put_other _ (by omega), Mem.word_put_other _ (by omega), Mem.word_put_same _ _ _ (by decide)]
  · simp only [m]
    rw [Mem.word_put_same _ _ _ (by decide)]
  · simp only [m]
    rw [Mem.word_put_other _ (by omega), Mem.word_put_same _ _ _ (by decide), List.length_replicate]
  · intro i c hi
    obtain ⟨h1, h2⟩ := List.getElem?_eq_some_iff.1 hi
    rw [List.length_replicate] at h1
    rw [List.getElem_replicate] at h2
    subst h2
    rw [hby _ (by omega), if_pos (by omega)]
    decide
  · intro i h1 h2
    rw [List.length_replicate] at h1
    rw [hby _ (by omega), if_neg (by omega)]

/-! ## Assigning, appending and clearing -/

/-- **C69** (assignment; partial: the string has room for more than the terminating zero, see
`C69_assign_empty_violated`). A C string that is shorter than the capacity is assigned whatever the string was before,
and nothing else is changed; a longer one is refused. -/
theorem C69_assign_partial {m : Mem} {p b cap src : Nat} {l : List UInt8} (h : Place m p b cap) (hs : CStr m src l)
    (hd : disjoint src (l.length + 1) b cap) (hc : 1 < cap) :
    (l.length < cap → ∃ m', assign m p src = .ok (m', b) ∧ StrAt m' p b cap l ∧ StrFrame m m' p b cap) ∧
      (cap ≤ l.length → assign m p src = .ok (m, 0)) := by
  have e : assign m p src = if l.length < cap then do
      let m ← copyChars m b src l.length
      let m ← m.memzero (b + l.length) (cap - l.length)
      let m ← setLength m p l.length
      return (m, b) else return (m, 0) := by
    rw [assign, h.text, Res.ok_bind, h.capacity, Res.ok_bind, if_pos ⟨hs.nz, h.nz, hc⟩, hs.length, Res.ok_bind]
  rw [e]
  refine ⟨fun hl => ?_, fun hl => by rw [if_neg (by omega)]; rfl⟩
  have hw := h.write (t := []) hs hd (by simpa using hl)
  simp only [List.length_nil, Nat.zero_add, Nat.add_zero] at hw
  rw [if_pos hl, hw]
  refine ⟨_, rfl, by simpa using h.written (t := []) (fun i c hi => by simp at hi) hs.txt (by simpa using hl), ?_, ?_⟩
  · simp only [written, Mem.put_blocks, Mem.zero_blocks, Mem.move_blocks]
  · intro x h1 h2
    exact written_byte (by simpa using hl) h1 h2

example : ∃ m', assign abMem 4096 4160 = .ok (m', 4120) ∧ StrAt m' 4096 4120 8 [99, 100] := by
  obtain ⟨m', h1, h2, -⟩ := (C69_assign_partial abMem_place abMem_cd (by simp [disjoint]) (by decide)).1 (by decide)
  exact ⟨m', h1, h2⟩

/-- **C69** (assignment; violated). A string with room for the terminating zero only takes no string at all, although the
empty one would fit. -/
theorem C69_assign_empty_violated {m : Mem} {p b src : Nat} {l : List UInt8} (h : Place m p b 1) (_hs : CStr m src l) :
    assign m p src = .ok (m, 0) := by
  rw [assign, h.text, Res.ok_bind, h.capacity, Res.ok_bind, if_neg (by omega)]
  rfl

example : ∃ m, Place m 4096 4120 1 ∧ CStr m 4170 [] := by
  refine ⟨abMem.put 4112 1, ⟨by decide, ?_, ?_, by decide, ?_, ?_, by decide, by decide⟩, by decide, ?_, ?_, ?_, by decide⟩
  · simp only [Mem.put_valid]; exact abMem_valid (by omega) (by omega)
  · rw [Mem.word_put_other _ (by omega)]; exact abMem_place.ptr
  · rw [Mem.word_put_same _ _ _ (by decide)]
  · simp only [Mem.put_valid]; exact abMem_valid (by omega) (by omega)
  · simp only [Mem.put_valid]; exact abMem_valid (by omega) (by simp)
  · intro i c hi; simp at hi
  · rw [Mem.byte_put_of_lt _ (by simp)]; exact abMem_empty.stop

/-- **C69** (appending). Appending to a string gives the concatenation if it is shorter than the capacity; otherwise
nothing is changed. -/
theorem C69_append {m : Mem} {p b cap src : Nat} {t l : List UInt8} (h : StrAt m p b cap t) (hs : CStr m src l)
    (hd : disjoint src (l.length + 1) b cap) :
    (t.length + l.length < cap → ∃ m', append m p src = .ok (m', b) ∧ StrAt m' p b cap (t ++ l) ∧ StrFrame m m' p b cap) ∧
      (cap ≤ t.length + l.length → append m p src = .ok (m, 0)) := by
  have hlt := h.lt
  have hlim := h.lim
  have hlim' := hs.lim
  have e : append m p src = if t.length + l.length < cap then do
      let m ← copyChars m (b + t.length) src l.length
      let m ← m.memzero (b + (t.length + l.length)) (cap - (t.length + l.length))
      let m ← setLength m p (t.length + l.length)
      return (m, b) else return (m, 0) := by
    rw [append, h.text, Res.ok_bind, h.toPlace.capacity, Res.ok_bind, h.length, Res.ok_bind,
      if_pos ⟨hs.nz, h.nz, h.lt⟩, hs.length, Res.ok_bind]
    rw [Nat.mod_eq_of_lt (by simp only [W]; omega)]
  rw [e]
  refine ⟨fun hl => ?_, fun hl => by rw [if_neg (by omega)]; rfl⟩
  rw [if_pos hl, h.toPlace.write hs hd hl]
  refine ⟨_, rfl, h.toPlace.written h.txt hs.txt hl, ?_, ?_⟩
  · simp only [written, Mem.put_blocks, Mem.zero_blocks, Mem.move_blocks]
  · intro x h1 h2
    exact written_byte hl h1 h2

example : ∃ m', append abMem 4096 4160 = .ok (m', 4120) ∧ StrAt m' 4096 4120 8 [97, 98, 99, 100] := by
  obtain ⟨m', h1, h2, -⟩ := (C69_append abMem_str abMem_cd (by simp [disjoint])).1 (by decide)
  exact ⟨m', h1, h2⟩

/-- **C69** (clearing). Clearing makes the string empty. -/
theorem C69_clear {m : Mem} {p b cap : Nat} {t : List UInt8} (h : StrAt m p b cap t) :
    ∃ m', Str.clear m p = .ok m' ∧ StrAt m' p b cap [] ∧ StrFrame m m' p b cap := by
  have hlt := h.lt
  have hal := h.al
  have hap := h.apart
  have hnz := h.nz
  have e : Str.clear m p = if 0 < b ∧ 0 < t.length ∧ t.length < cap then do
      let m ← m.memzero b t.length
      setLength m p 0
    else return m := by
    rw [Str.clear, h.length, Res.ok_bind, h.toPlace.capacity, Res.ok_bind, h.text, Res.ok_bind]
  rw [e]
  by_cases h0 : t = []
  · subst h0
    exact ⟨m, by rw [if_neg (by simp)]; rfl, h, rfl, fun _ _ _ => rfl⟩
  · have hpos := List.length_pos_iff.2 h0
    rw [if_pos ⟨by omega, hpos, hlt⟩, Mem.memzero_ok (Mem.valid_sub h.chars (Nat.le_refl _) (by omega)), Res.ok_bind,
      setLength, Mem.store64_ok (by omega) (by simp only [Mem.zero_valid]; exact Mem.valid_sub h.val (by omega) (by omega))]
    have fr : ∀ x, (x < b ∨ b + cap ≤ x) → (x < p + 8 ∨ p + 16 ≤ x) →
        ((m.zero b t.length).put (p + 8) 0).byte x = m.byte x := fun x h1 h2 => by
      rw [Mem.byte_put_of_lt _ (by omega), Mem.byte_zero_out _ (by omega)]
    refine ⟨_, rfl, ⟨⟨hal, ?_, ?_, hnz, ?_, ?_, hap, h.lim⟩, ?_, by simp only [List.length_nil]; omega, fun i c hi => by simp at hi, ?_⟩, ?_, fr⟩
    · simp only [Mem.put_valid, Mem.zero_valid]; exact h.val
    · exact (Mem.word_congr fun x h1 h2 => fr x (by omega) (by omega)).trans h.ptr
    · exact (Mem.word_congr fun x h1 h2 => fr x (by omega) (by omega)).trans h.room
    · simp only [Mem.put_valid, Mem.zero_valid]; exact h.chars
    · exact Mem.word_put_same _ _ _ (by decide)
    · intro i _ h2
      rw [Mem.byte_put_of_lt _ (by omega)]
      rcases Nat.lt_or_ge i t.length with h1 | h1
      · exact Mem.byte_zero_in _ (by omega)
      · rw [Mem.byte_zero_out _ (by omega)]; exact h.rest i h1 h2
    · simp only [Mem.put_blocks, Mem.zero_blocks]

example : ∃ m', Str.clear abMem 4096 = .ok m' ∧ length m' 4096 = .ok 0 := by
  obtain ⟨m', h1, h2, -⟩ := C69_clear abMem_str
  exact ⟨m', h1, (C69_length h2).1⟩

/-- **C69** (synchronising; partial: there is a zero among the characters). If the client has written a
zero-terminated string to the characters, then the length function gives its length afterwards. -/
theorem C69_sync_partial {m : Mem} {p b cap : Nat} {l : List UInt8} (h : Place m p b cap) (hs : CStr m b l)
    (hl : l.length < cap) :
    ∃ m', syncLength m p = .ok m' ∧ length m' p = .ok l.length ∧ CStr m' b l ∧ m'.blocks = m.blocks ∧
      ∀ x, (x < p + 8 ∨ p + 16 ≤ x) → m'.byte x = m.byte x := by
  have hal := h.al
  have hap := h.apart
  have hlim := h.lim
  rw [syncLength, h.capacity, Res.ok_bind, h.text, Res.ok_bind, if_pos ⟨h.nz, by omega⟩, hs.length, Res.ok_bind,
    if_pos hl, setLength, Mem.store64_ok (by omega) (Mem.valid_sub h.val (by omega) (by omega))]
  have fr : ∀ x, (x < p + 8 ∨ p + 16 ≤ x) → (m.put (p + 8) l.length).byte x = m.byte x := fun x hx =>
    Mem.byte_put_of_lt _ (by omega)
  have h' : Place (m.put (p + 8) l.length) p b cap :=
    ⟨hal, by simp only [Mem.put_valid]; exact h.val, by rw [Mem.word_put_other _ (by omega)]; exact h.ptr, h.nz,
      by rw [Mem.word_put_other _ (by omega)]; exact h.room, by simp only [Mem.put_valid]; exact h.chars, hap, hlim⟩
  refine ⟨_, rfl, ?_, ⟨hs.nz, by simp only [Mem.put_valid]; exact hs.val, ?_, ?_, hs.lim⟩, Mem.put_blocks _ _ _, fr⟩
  · rw [h'.length, Mem.word_put_same _ _ _ (by simp only [W]; omega), if_pos hl]
  · exact hs.txt.congr fun x h1 h2 => fr x (by omega)
  · rw [fr _ (by omega)]; exact hs.stop

example : ∃ m', syncLength abMem 4096 = .ok m' ∧ length m' 4096 = .ok 2 := by
  obtain ⟨m', h1, h2, -⟩ := C69_sync_partial abMem_place abMem_str.cstr (by decide)
  exact ⟨m', h1, h2⟩

/-- **C69** (synchronising; violated). The capacity is not a bound for the search for the zero: without one the search
leaves the characters, and if memory ends before a zero is found the behaviour is undefined. -/
theorem C69_sync_violated {m : Mem} {p b cap k : Nat} (h : Place m p b cap) (hc : 0 < cap) (_hk : cap ≤ k)
    (hz : ∀ i < k, m.byte (b + i) ≠ 0) (hv : ¬ m.valid (b + k) 1) : syncLength m p = .ub := by
  rw [syncLength, h.capacity, Res.ok_bind, h.text, Res.ok_bind, if_pos ⟨h.nz, hc⟩, cstringLength, if_pos h.nz,
    strlen_ub k b W hz hv]
  rfl

example : ∃ (m : Mem) (p b cap k : Nat), Place m p b cap ∧ 0 < cap ∧ cap ≤ k ∧ (∀ i < k, m.byte (b + i) ≠ 0) ∧
    ¬ m.valid (b + k) 1 := by
  let m : Mem := ((Mem.put ⟨[(4096, 32)], fun _ => 97⟩ 4096 4120).put 4104 8).put 4112 8
  have hv : ∀ a n, 4096 ≤ a → a + n ≤ 4128 → m.valid a n := fun a n h1 h2 => Or.inr ⟨(4096, 32), by simp [m], h1, h2⟩
  refine ⟨m, 4096, 4120, 8, 8, ⟨by decide, hv _ _ (by omega) (by omega), ?_, by decide, ?_, hv _ _ (by omega) (by omega),
    by decide, by decide⟩, by decide, by decide, fun i hi => ?_, ?_⟩
  · simp only [m]
    rw [Mem.word_put_other _ (by omega), Mem.word_put_other _ (by omega), Mem.word_put_same _ _ _ (by decide)]
  · simp only [m]
    rw [Mem.word_put_same _ _ _ (by decide)]
  · simp only [m]
    rw [Mem.byte_put_of_lt _ (by omega), Mem.byte_put_of_lt _ (by omega), Mem.byte_put_of_lt _ (by omega)]
    exact (by decide : (97 : UInt8) ≠ 0)
  · rintro (h0 | ⟨B, hB, h1, h2⟩)
    · omega
    · simp only [m, Mem.put_blocks, List.mem_singleton] at hB
      subst hB
      dsimp only at h2
      omega

/-! ## Strings in buffers -/

/-- **C69** (in a buffer). A string of a buffer is found by its index and its type, and is there. -/
theorem C69_lookup {s : St} {os : List Obj} {i cap : Nat} {t : List UInt8} (h : Reach s os)
    (hi : os[i]? = some (strObj cap t)) (ht : ∀ c ∈ t, c ≠ 0) (hl : t.length < cap) :
    ∃ p, objectBeginAddrFiltered s.mem s.buf.dataAddr i 65538 s.buf.slot = .ok p ∧ p ≠ 0 ∧ StrAt s.mem p (p + 24) cap t := by
  obtain ⟨c, k, g, rep⟩ := h.good
  obtain ⟨r, -, ho, -⟩ := g.places rep hi
  have hlim := ho.ok.lim
  simp only [strObj, rawObj, Obj.total, List.map_cons, List.map_nil, List.sum_cons, List.sum_nil, List.length_cons,
    List.length_nil] at hlim
  obtain ⟨p, hp⟩ := inBuf h hi (by simp only [W]; omega)
  exact ⟨p, hp.filtered, hp.nz, hp.str ht hl⟩

/-- Changing a string of a buffer in place changes this object in the list. -/
theorem Buf.Str.StrAt.reach {s : St} {os : List Obj} {i p cap : Nat} {t l : List UInt8} {m' : Mem} (h : Reach s os)
    (hi : os[i]? = some (strObj cap t)) (hp : objectBeginAddrFiltered s.mem s.buf.dataAddr i 65538 s.buf.slot = .ok p)
    (ht : t.length < W) (h' : StrAt m' p (p + 24) cap l) (hf : StrFrame s.mem m' p (p + 24) cap) :
    Reach { s with mem := m' } (os.set i (strObj cap l)) := by
  obtain ⟨q, hq⟩ := inBuf h hi ht
  have e := hq.filtered
  rw [hp] at e
  obtain rfl := Res.ok.inj e
  refine (hq.change h hi hf.1 (fun x hx => hf.2 x (by omega) (by omega)) h'.len h'.room fun j hj => ?_).1
  rcases Nat.lt_or_ge j l.length with h0 | h0
  · rw [(h'.txt j _ (List.getElem?_eq_getElem h0)).2, List.getD, List.getElem?_eq_getElem h0]
    rfl
  · rw [h'.rest j h0 hj, List.getD, List.getElem?_eq_none (by omega)]
    rfl

/-- **C69** (assigning to a string in a buffer; partial: as `C69_assign_partial`). The buffer then holds the string that
was assigned in place of the old one, and all its other objects. -/
theorem C69_assign_in_buffer_partial {s : St} {os : List Obj} {i cap p src : Nat} {t l : List UInt8} (h : Reach s os)
    (hi : os[i]? = some (strObj cap t)) (ht : ∀ c ∈ t, c ≠ 0) (hl : t.length < cap)
    (hp : objectBeginAddrFiltered s.mem s.buf.dataAddr i 65538 s.buf.slot = .ok p) (hs : CStr s.mem src l)
    (hd : disjoint src (l.length + 1) (p + 24) cap) (hc : 1 < cap) (hlt : l.length < cap) :
    ∃ m', assign s.mem p src = .ok (m', p + 24) ∧ Reach { s with mem := m' } (os.set i (strObj cap l)) ∧
      Holds { s with mem := m' } (os.set i (strObj cap l)) := by
  obtain ⟨p', hp', -, hstr⟩ := C69_lookup h hi ht hl
  rw [hp] at hp'
  obtain rfl := Res.ok.inj hp'
  have hlim := hstr.lim
  obtain ⟨m', e, h1, h2⟩ := (C69_assign_partial hstr.toPlace hs hd hc).1 hlt
  have hr := h1.reach h hi hp (by simp only [W]; omega) h2
  exact ⟨m', e, hr, C02_list_of_objects_partial hr⟩

/-- **C69** (appending to a string in a buffer). -/
theorem C69_append_in_buffer {s : St} {os : List Obj} {i cap p src : Nat} {t l : List UInt8} (h : Reach s os)
    (hi : os[i]? = some (strObj cap t)) (ht : ∀ c ∈ t, c ≠ 0) (hl : t.length < cap)
    (hp : objectBeginAddrFiltered s.mem s.buf.dataAddr i 65538 s.buf.slot = .ok p) (hs : CStr s.mem src l)
    (hd : disjoint src (l.length + 1) (p + 24) cap) (hlt : t.length + l.length < cap) :
    ∃ m', append s.mem p src = .ok (m', p + 24) ∧ Reach { s with mem := m' } (os.set i (strObj cap (t ++ l))) ∧
      Holds { s with mem := m' } (os.set i (strObj cap (t ++ l))) := by
  obtain ⟨p', hp', -, hstr⟩ := C69_lookup h hi ht hl
  rw [hp] at hp'
  obtain rfl := Res.ok.inj hp'
  have hlim := hstr.lim
  obtain ⟨m', e, h1, h2⟩ := (C69_append hstr hs hd).1 hlt
  have hr := h1.reach h hi hp (by simp only [W]; omega) h2
  exact ⟨m', e, hr, C02_list_of_objects_partial hr⟩

/-- **C69** (clearing a string in a buffer). -/
theorem C69_clear_in_buffer {s : St} {os : List Obj} {i cap p : Nat} {t : List UInt8} (h : Reach s os)
    (hi : os[i]? = some (strObj cap t)) (ht : ∀ c ∈ t, c ≠ 0) (hl : t.length < cap)
    (hp : objectBeginAddrFiltered s.mem s.buf.dataAddr i 65538 s.buf.slot = .ok p) :
    ∃ m', Str.clear s.mem p = .ok m' ∧ Reach { s with mem := m' } (os.set i (strObj cap [])) ∧
      Holds { s with mem := m' } (os.set i (strObj cap [])) := by
  obtain ⟨p', hp', -, hstr⟩ := C69_lookup h hi ht hl
  rw [hp] at hp'
  obtain rfl := Res.ok.inj hp'
  have hlim := hstr.lim
  obtain ⟨m', e, h1, h2⟩ := C69_clear hstr
  have hr := h1.reach h hi hp (by simp only [W]; omega) h2
  exact ⟨m', e, hr, C02_list_of_objects_partial hr⟩

/-! ## Adding strings -/

/-- The local variable of the functions which add a string. -/
structure Local (s : St) (tmp : Nat) : Prop where
  al : tmp % 8 = 0
  nz : tmp ≠ 0
  ext : s.mem.ext s.pool.buffer tmp 24

theorem strObj_room {k : Content} {c : Caps} {cap : Nat} {t : List UInt8} (hc : cap < 2 ^ 61)
    (h : Room k.counts c (strObj cap t)) : k.room c 24 [⟨0, 1, cap⟩] :=
  (room_iff (o := strObj cap t) (rawObj_ok hc)).2 h

/-- **C69** (predicted size). The number of slots which the library predicts for a string is what adding it takes. -/
theorem C69_slots {n : Nat} (hn : n + 1 < 2 ^ 61) (t : List UInt8) :
    8 * requiredNumSlots n 8 = (strObj (n + 1) t).total ∧
      requiredNumDataptrs 8 = (strObj (n + 1) t).attrs.length := by
  refine ⟨?_, rfl⟩
  have e : (strObj (n + 1) t).total = 24 + (n + 1 + 7) / 8 * 8 := by
    simp only [strObj, rawObj, Obj.total, List.map_cons, List.map_nil, List.sum_cons, List.sum_nil]
    omega
  rw [e, requiredNumSlots, Nat.mod_eq_of_lt (show n + 1 < W by simp only [W]; omega), roundUp_8, roundUp_8,
    if_pos (by decide), Nat.mod_eq_of_lt (by simp only [W]; omega)]
  omega

example : requiredNumSlots 7 8 = 4 := by decide

/-- **C69** (adding; partial: the string is not longer than the maximal length, see `C69_add_violated`). The buffer then
holds the string behind the objects which it had; this succeeds if there is room. -/
theorem C69_add_partial {malloc : Nat → Nat} {s : St} {os : List Obj} {tmp src n : Nat} {t : List UInt8} {u c : Caps}
    (h : Reach s os) (hm : MallocOk malloc s.mem) (hl : Local s tmp) (hn : n + 1 < 2 ^ 61) (hs : Input s tmp src t)
    (ht : t.length ≤ n) (hu : Used s u) (hc : Capacity s c) :
    ∃ s' q, add malloc s tmp src n = .ok (s', q) ∧ (Room u c (strObj (n + 1) t) → q ≠ 0) ∧
      (q ≠ 0 → Reach s' (os ++ [strObj (n + 1) t]) ∧ Holds s' (os ++ [strObj (n + 1) t]) ∧
        objectBeginAddrFiltered s'.mem s'.buf.dataAddr os.length 65538 s'.buf.slot = .ok q ∧
        StrAt s'.mem q (q + 24) (n + 1) t ∧ KeepsClient s s' tmp) := by
  obtain ⟨k, g, rep, rfl⟩ := h.good_of hc hu
  obtain ⟨s', q, e, -, h1, h2⟩ := add_spec h g rep hm hl.al hl.nz hl.ext hn hs
  refine ⟨s', q, e, fun hr => h2 (by omega) (strObj_room hn hr), fun hq => ?_⟩
  obtain ⟨-, hr, hi, hk⟩ := h1.resolve_left hq
  refine ⟨hr, C02_list_of_objects_partial hr, hi.filtered, hi.str (fun ch hch => ?_) (by omega), hk⟩
  rcases hs with ⟨-, rfl⟩ | ⟨hcs, -⟩
  · simp at hch
  · obtain ⟨j, hj⟩ := List.mem_iff_getElem?.1 hch
    exact (hcs.txt j ch hj).1

/-- **C69** (adding; violated). A string which is longer by one than the maximal length is accepted.  It is stored
without the terminating zero, and the length function then says that it is empty. -/
theorem C69_add_violated {malloc : Nat → Nat} {s : St} {os : List Obj} {tmp src n : Nat} {t : List UInt8} {u c : Caps}
    (h : Reach s os) (hm : MallocOk malloc s.mem) (hl : Local s tmp) (hn : n + 1 < 2 ^ 61) (hs : Input s tmp src t)
    (ht : t.length = n + 1) (hu : Used s u) (hc : Capacity s c) (room : Room u c (strObj (n + 1) t)) :
    ∃ s' q, add malloc s tmp src n = .ok (s', q) ∧ q ≠ 0 ∧ Holds s' (os ++ [strObj (n + 1) t]) ∧
      objectBeginAddrFiltered s'.mem s'.buf.dataAddr os.length 65538 s'.buf.slot = .ok q ∧
      length s'.mem q = .ok 0 ∧ capacity s'.mem q = .ok (n + 1) ∧ ∀ j < n + 1, s'.mem.byte (q + 24 + j) ≠ 0 := by
  obtain ⟨k, g, rep, rfl⟩ := h.good_of hc hu
  obtain ⟨s', q, e, -, h1, h2⟩ := add_spec h g rep hm hl.al hl.nz hl.ext hn hs
  have hq := h2 (by omega) (strObj_room hn room)
  obtain ⟨-, hr, hi, -⟩ := h1.resolve_left hq
  refine ⟨s', q, e, hq, C02_list_of_objects_partial hr, hi.filtered, ?_, hi.place.capacity, fun j hj => ?_⟩
  · rw [hi.place.length, hi.len, if_neg (by omega)]
  · rw [hi.data j hj]
    rcases hs with ⟨-, rfl⟩ | ⟨hcs, -⟩
    · simp at ht
    · have hjt : j < t.length := by omega
      rw [List.getD, List.getElem?_eq_getElem hjt]
      exact (hcs.txt j _ (List.getElem?_eq_getElem hjt)).1

/-- **C69** (adding). A string which is longer still is refused, and the buffer is as before. -/
theorem C69_add_refused {malloc : Nat → Nat} {s : St} {os : List Obj} {tmp src n : Nat} {t : List UInt8}
    (h : Reach s os) (hm : MallocOk malloc s.mem) (hl : Local s tmp) (hn : n + 1 < 2 ^ 61) (hs : Input s tmp src t)
    (ht : n + 1 < t.length) : add malloc s tmp src n = .ok (s, 0) := by
  obtain ⟨c, k, g, rep⟩ := h.good
  obtain ⟨s', q, e, h0, -⟩ := add_spec h g rep hm hl.al hl.nz hl.ext hn hs
  obtain ⟨rfl, rfl⟩ := h0 ht
  exact e

/-- **C69** (from a C string). The new string has the length of the given one and just the capacity for it. -/
theorem C69_new_from_cstring {malloc : Nat → Nat} {s : St} {os : List Obj} {tmp src : Nat} {t : List UInt8} {u c : Caps}
    (h : Reach s os) (hm : MallocOk malloc s.mem) (hl : Local s tmp) (hn : t.length + 1 < 2 ^ 61) (hs : Input s tmp src t)
    (hu : Used s u) (hc : Capacity s c) :
    ∃ s' q, newFromCstring malloc s tmp src = .ok (s', q) ∧ (Room u c (strObj (t.length + 1) t) → q ≠ 0) ∧
      (q ≠ 0 → Reach s' (os ++ [strObj (t.length + 1) t]) ∧ Holds s' (os ++ [strObj (t.length + 1) t]) ∧
        objectBeginAddrFiltered s'.mem s'.buf.dataAddr os.length 65538 s'.buf.slot = .ok q ∧
        StrAt s'.mem q (q + 24) (t.length + 1) t ∧ KeepsClient s s' tmp) := by
  rw [newFromCstring, hs.length, Res.ok_bind]
  exact C69_add_partial h hm hl hn hs (Nat.le_refl _) hu hc

/-- **C69** (copies; violated). The copy of a string has the same characters, but its capacity is larger by one: the
capacity of the original is used as the maximal length. -/
theorem C69_copy_violated {malloc : Nat → Nat} {s : St} {os : List Obj} {tmp p b cap : Nat} {t : List UInt8} {u c : Caps}
    (h : Reach s os) (hm : MallocOk malloc s.mem) (hl : Local s tmp) (hn : cap + 1 < 2 ^ 61) (hp : StrAt s.mem p b cap t)
    (hx : s.mem.ext s.pool.buffer b (t.length + 1)) (hd : disjoint b (t.length + 1) tmp 24)
    (hu : Used s u) (hc : Capacity s c) :
    ∃ s' q, addCopy malloc s tmp p = .ok (s', q) ∧ (Room u c (strObj (cap + 1) t) → q ≠ 0) ∧
      (q ≠ 0 → Reach s' (os ++ [strObj (cap + 1) t]) ∧ Holds s' (os ++ [strObj (cap + 1) t]) ∧
        objectBeginAddrFiltered s'.mem s'.buf.dataAddr os.length 65538 s'.buf.slot = .ok q ∧
        StrAt s'.mem q (q + 24) (cap + 1) t ∧ KeepsClient s s' tmp) := by
  have hlt := hp.lt
  rw [addCopy, hp.text, Res.ok_bind, hp.toPlace.capacity, Res.ok_bind]
  exact C69_add_partial h hm hl hn (Or.inr ⟨hp.cstr, hx, hd⟩) (by omega) hu hc

/-- **C69** (new strings; violated). The capacity of a new string is the maximal length plus one modulo 2^64: for the
largest maximal length a string without any capacity is added. -/
theorem C69_new_violated {malloc : Nat → Nat} {s : St} {os : List Obj} {tmp : Nat} {u c : Caps}
    (h : Reach s os) (hm : MallocOk malloc s.mem) (hl : Local s tmp) (hu : Used s u) (hc : Capacity s c)
    (room : Room u c (strObj 0 [])) :
    ∃ s' q, new malloc s tmp (2 ^ 64 - 1) = .ok (s', q) ∧ q ≠ 0 ∧ Holds s' (os ++ [strObj 0 []]) ∧
      capacity s'.mem q = .ok 0 ∧ maxLength s'.mem q = .ok 0 := by
  obtain ⟨k, g, rep, rfl⟩ := h.good_of hc hu
  obtain ⟨s', q, e, h1, h2⟩ := addLocal_spec (data := fun j => ([] : List UInt8).getD j 0) (b := 0) (l := 0) (c := 0) h g rep
    hm hl.al hl.nz hl.ext (by decide) (by decide) (by decide) (Or.inl ⟨rfl, fun _ _ => rfl⟩)
  have hq := h2 (strObj_room (by decide) room)
  obtain ⟨hr, hi, -⟩ := h1.resolve_left hq
  refine ⟨s', q, ?_, hq, C02_list_of_objects_partial hr, hi.place.capacity, ?_⟩
  · rw [new, show (2 ^ 64 - 1 + 1) % W = 0 by decide]
    exact e
  · rw [maxLength, hi.place.capacity, Res.ok_bind, hi.place.text, Res.ok_bind, Res.pure_eq]
    rfl

/-! ## The hypotheses can be met -/

/-- The client has the C string "ab" at 2^30 + 64. -/
def strMem : Mem := ⟨[(2 ^ 30, 4096)], fun x => if x = 2 ^ 30 + 64 then 97 else if x = 2 ^ 30 + 65 then 98 else 0⟩

/-- An empty buffer and the C string. -/
theorem strStart : ∃ s, Reach s [] ∧ Used s ⟨0, 0, 0, 0⟩ ∧ Capacity s ⟨2, 200, 2, 0⟩ ∧ Local s (2 ^ 30) ∧
    Input s (2 ^ 30) (2 ^ 30 + 64) [97, 98] := by
  obtain ⟨s, r, g, b, p, bl, c, f⟩ := start (m := strMem) rfl ⟨2, 200, 2, 0⟩ (by decide)
  have hpb : s.pool.buffer ≠ 2 ^ 30 := by rw [g.pbuf, b]; decide
  have hblk : (2 ^ 30, 4096) ∈ s.mem.blocks := by rw [bl]; simp
  refine ⟨s, r, g.used, g.capacity, ⟨by decide, by decide, Or.inr ⟨_, hblk, Ne.symm hpb, by decide, by decide⟩⟩,
    Or.inr ⟨⟨by decide, Or.inr ⟨_, hblk, by decide, by decide⟩, ?_, ?_, by decide⟩,
      Or.inr ⟨_, hblk, Ne.symm hpb, by decide, by decide⟩, by simp [disjoint]⟩⟩
  · intro i ch hi
    match i, hi with
    | 0, hi => simp at hi; subst hi; rw [f _ (by omega) (by omega)]; decide
    | 1, hi => simp at hi; subst hi; rw [f _ (by omega) (by omega)]; decide
    | n + 2, hi => simp at hi
  · simp only [List.length_cons, List.length_nil]
    rw [f _ (by omega) (by omega)]
    decide

/-- The string "ab" in a buffer, with room for seven characters. -/
theorem strAdded : ∃ s' q, Reach s' [strObj 8 [97, 98]] ∧
    objectBeginAddrFiltered s'.mem s'.buf.dataAddr 0 65538 s'.buf.slot = .ok q ∧ length s'.mem q = .ok 2 := by
  obtain ⟨s, h1, h2, h3, h4, h5⟩ := strStart
  obtain ⟨s', q, -, e1, e2⟩ := C69_add_partial h1 (noMem_ok _) h4 (n := 7) (by decide) h5 (by decide) h2 h3
  obtain ⟨r, -, f, st, -⟩ := e2 (e1 ⟨by decide, by decide, by decide⟩)
  exact ⟨s', q, r, f, (C69_length st).1⟩

/-- A string which is longer than the maximal length is added. -/
example : ∃ s s' q, add noMem s (2 ^ 30) (2 ^ 30 + 64) 1 = .ok (s', q) ∧ Input s (2 ^ 30) (2 ^ 30 + 64) [97, 98] ∧
    q ≠ 0 ∧ length s'.mem q = .ok 0 := by
  obtain ⟨s, h1, h2, h3, h4, h5⟩ := strStart
  obtain ⟨s', q, e, hq, -, -, hl, -⟩ := C69_add_violated h1 (noMem_ok _) h4 (n := 1) (by decide) h5 rfl h2 h3
    ⟨by decide, by decide, by decide⟩
  exact ⟨s, s', q, e, h5, hq, hl⟩

/-- The string in the buffer is cleared. -/
example : ∃ s q m', Reach s [strObj 8 [97, 98]] ∧ Str.clear s.mem q = .ok m' ∧
    Holds { s with mem := m' } [strObj 8 []] := by
  obtain ⟨s, q, r, f, -⟩ := strAdded
  obtain ⟨m', e, -, h⟩ := C69_clear_in_buffer r (i := 0) rfl (by decide) (by decide) f
  exact ⟨s, q, m', r, e, h⟩

/-- The C string of the client is appended to the string in the buffer. -/
example : ∃ s q m', Reach s [strObj 8 [97, 98]] ∧ append s.mem q (2 ^ 30 + 64) = .ok (m', q + 24) ∧
    Holds { s with mem := m' } [strObj 8 [97, 98, 97, 98]] := by
  obtain ⟨s, h1, h2, h3, h4, h5⟩ := strStart
  obtain ⟨s', q, -, e1, e2⟩ := C69_add_partial h1 (noMem_ok _) h4 (n := 7) (by decide) h5 (by decide) h2 h3
  obtain ⟨r, -, f, st, hk⟩ := e2 (e1 ⟨by decide, by decide, by decide⟩)
  rw [List.length_nil] at f
  rcases h5 with ⟨h0, -⟩ | ⟨hc, hx, hd⟩
  · exact absurd h0 (by decide)
  · obtain ⟨k1, k2⟩ := hk _ _ hx hd
    obtain ⟨c, k, g, rep⟩ := r.good
    have hout := k1.outside g.wf (by rw [g.pbuf]; exact g.blk)
    obtain ⟨p, hp⟩ := inBuf r (i := 0) rfl (by decide)
    have hpq := hp.filtered
    rw [f] at hpq
    obtain rfl := Res.ok.inj hpq
    have hpool := hp.pool
    have hc' : CStr s'.mem (2 ^ 30 + 64) [97, 98] := by
      refine ⟨hc.nz, k1.valid, hc.txt.congr fun x a1 a2 => ?_, ?_, hc.lim⟩
      · simp only [List.length_cons, List.length_nil] at a2
        have := k2 (x - (2 ^ 30 + 64)) (by simp only [List.length_cons, List.length_nil]; omega)
        rwa [show 2 ^ 30 + 64 + (x - (2 ^ 30 + 64)) = x by omega] at this
      · rw [k2 _ (by simp)]; exact hc.stop
    obtain ⟨m', e, -, h⟩ := C69_append_in_buffer r (i := 0) rfl (by decide) (by decide) f hc' (by
      simp only [disjoint, List.length_cons, List.length_nil] at hout ⊢; omega) (by decide)
    exact ⟨s', q, m', r, e, h⟩

end SixTrack
