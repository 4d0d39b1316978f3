import Verif.Buffer.Layout

/-!
# Copying and initialising a managed buffer
-/

namespace SixTrack.Buf

theorem Mem.word_put_eq (m : Mem) {a v b : Nat} (h : b = a) (hv : v < W) : (m.put a v).word b = v := by
  subst h; exact word_put_same m b v hv

/-- Evaluate words in a chain of stores. -/
macro "words" : tactic => `(tactic|
  repeat (first
    | rw [Mem.word_put_other _ (by omega)]
    | rw [Mem.word_put_eq _ (by omega) (by omega)]))

/-- Evaluate bytes in a chain of stores that do not touch them. -/
macro "frame_put" : tactic => `(tactic| repeat rw [Mem.byte_put_of_lt _ (by omega)])

theorem fits_ok {n : Nat} (h : n < W) : fits n = .ok n := if_pos h

/-! ## Copying -/

/-- The layout only depends on the bytes up to the buffer's length. -/
theorem Layout.copy {m m' : Mem} {A B B' cap cap' : Nat} {c : Caps} {k : Content}
    (h : Layout m A B cap c k) (nz : B' ≠ 0) (al : B' % 8 = 0) (limA : A + cap' < W)
    (limB : B' + cap' < W) (fit : c.len ≤ cap') (val : m'.valid B' cap')
    (eq : ∀ x, x < c.len → m'.byte (B' + x) = m.byte (B + x)) : Layout m' A B' cap' c k := by
  have hw : ∀ o, o + 8 ≤ c.len → m'.word (B' + o) = m.word (B + o) := by
    intro o ho
    refine Mem.word_eq_of_bytes fun i hi => ?_
    rw [Nat.add_assoc, Nat.add_assoc]
    exact eq _ (by omega)
  have le := h.head.le
  have leS : k.nS ≤ c.slots := le.slots
  have leO : k.recs.length ≤ c.objs := le.objs
  have leD : k.ptrs.length ≤ c.dataptrs := le.dataptrs
  have leG : k.gs.length ≤ c.garbage := le.garbage
  have lenle : 128 ≤ c.len := by simp only [Caps.len]; omega
  refine ⟨⟨h.head.nzA, nz, al, limA, limB, fit, val, le, ?_, ?_, ?_, ?_, ?_, ?_⟩, h.ok, ?_, ?_, ?_, ?_⟩
  · have := hw 0 (by omega)
    rw [Nat.add_zero, Nat.add_zero] at this
    rw [this, h.head.h0]
  · rw [hw 8 (by omega), h.head.h1]
  · rw [hw 16 (by omega), h.head.h2]
  · intro id h1 h2; rw [hw (8 * id) (by omega), h.head.addr id h1 h2]
  · intro id h1 h2
    rw [hw _ (by have := off_end c id h1 h2; omega), h.head.max id h1 h2]
  · intro id h1 h2
    rw [Nat.add_assoc, hw _ (by have := off_end c id h1 h2; omega), ← Nat.add_assoc, h.head.num id h1 h2]
  · intro i r hi
    have hl := (List.getElem?_eq_some_iff.mp hi).1
    have e := off_end c 4 (by omega) (by omega)
    simp only [ent, cnt] at e
    rw [hw _ (by omega), hw _ (by omega), hw _ (by omega)]
    exact h.recs i r hi
  · intro i p hi
    have hl := (List.getElem?_eq_some_iff.mp hi).1
    have e := off_end c 5 (by omega) (by omega)
    have hp := h.ok.ptr_ok p (List.mem_of_getElem? hi)
    simp only [ent, cnt] at e
    rw [hw _ (by omega), hw _ (by simp only [Caps.len]; omega)]
    exact h.ptrs i p hi
  · intro i q hi
    have hl := (List.getElem?_eq_some_iff.mp hi).1
    have e := off_end c 6 (by omega) (by omega)
    simp only [ent, cnt] at e
    rw [hw _ (by omega), hw _ (by omega)]
    exact h.gars i q hi
  · intro x hx hn
    rw [eq _ (by simp only [Caps.len]; omega)]
    exact h.data x hx hn

/-- Changing memory outside of the buffer. -/
theorem Layout.frame {m m' : Mem} {A B cap : Nat} {c : Caps} {k : Content}
    (h : Layout m A B cap c k) (val : m'.valid B cap)
    (eq : ∀ x, x < c.len → m'.byte (B + x) = m.byte (B + x)) : Layout m' A B cap c k :=
  h.copy h.head.nzB h.head.alB h.head.limA h.head.limB h.head.fit val eq

/-! ## Setting section words -/

theorem setMaxSize_eq {m : Mem} {B id v o cap : Nat} (nz : B ≠ 0) (al : B % 8 = 0)
    (val : m.valid B cap) (hc : 56 ≤ cap) (h1 : 3 ≤ id) (h2 : id ≤ 6)
    (hw : m.word (B + 8 * id) = B + o) (ho : o % 8 = 0) (hv : o + 8 ≤ cap) :
    setMaxSize m B id v 8 = .ok (m.put (B + o) v) := by
  simp only [setMaxSize, sectionPtr]
  rw [if_pos ⟨nz, by omega, h1, h2⟩, Mem.load64_ok (by omega) (Mem.valid_sub val (by omega) (by omega)), hw,
    Res.ok_bind, if_pos (by omega), Mem.store64_ok (by omega) (Mem.valid_sub val (by omega) (by omega))]

theorem setNumEntities_eq {m : Mem} {B id v o cap : Nat} (nz : B ≠ 0) (al : B % 8 = 0)
    (val : m.valid B cap) (hc : 56 ≤ cap) (h1 : 3 ≤ id) (h2 : id ≤ 6)
    (hw : m.word (B + 8 * id) = B + o) (ho : o % 8 = 0) (hv : o + 16 ≤ cap) :
    setNumEntities m B id v 8 = .ok (m.put (B + o + 8) v) := by
  simp only [setNumEntities, sectionPtr]
  rw [if_pos ⟨nz, by omega, h1, h2⟩, Mem.load64_ok (by omega) (Mem.valid_sub val (by omega) (by omega)), hw,
    Res.ok_bind, if_pos (by omega), Mem.store64_ok (by omega) (Mem.valid_sub val (by omega) (by omega))]

/-! ## Initialising -/

/-- The empty content. -/
def Content.empty : Content := ⟨0, [], [], [], fun _ => 0⟩

theorem Content.empty_ok : Content.empty.Ok := by
  constructor <;> simp [Content.empty]

theorem Content.empty_strict : Content.empty.Strict := by
  constructor <;> simp [Content.empty]

/-- The memory after `NS(ManagedBuffer_init)` has written the header. -/
def initHead (m : Mem) (B : Nat) (c : Caps) : Mem :=
  (((((((m.zero B c.len).put B B).put (B + 8) c.len).put (B + 16) 64).put (B + 24) (B + 64)).put (B + 32)
    (B + (64 + (16 + 8 * c.slots)))).put (B + 40) (B + (64 + (16 + 8 * c.slots) + (16 + 24 * c.objs)))).put
    (B + 48) (B + (64 + (16 + 8 * c.slots) + (16 + 24 * c.objs) + (16 + 8 * c.dataptrs)))

/-- One section header. -/
def initSec (m : Mem) (B : Nat) (c : Caps) (id : Nat) : Mem :=
  (m.put (B + off c id) (16 + ent id * cnt c id)).put (B + off c id + 8) 0

/-- The memory after `NS(ManagedBuffer_init)`. -/
def initMem (m : Mem) (B : Nat) (c : Caps) : Mem :=
  initSec (initSec (initSec (initSec (initHead m B c) B c 3) B c 4) B c 5) B c 6

theorem initHead_addr (m : Mem) {B : Nat} {c : Caps} (lim : B + c.len < W) :
    ∀ id, 3 ≤ id → id ≤ 6 → (initHead m B c).word (B + 8 * id) = B + off c id := by
  have hL : c.len = 128 + 8 * c.slots + 24 * c.objs + 8 * c.dataptrs + 16 * c.garbage := rfl
  refine forall_id ?_ ?_ ?_ ?_ <;> simp only [initHead, off] <;> words <;> omega

theorem initHead_low (m : Mem) {B : Nat} {c : Caps} (lim : B + c.len < W) :
    (initHead m B c).word B = B ∧ (initHead m B c).word (B + 8) = c.len ∧
      (initHead m B c).word (B + 16) = 64 := by
  have hL : c.len = 128 + 8 * c.slots + 24 * c.objs + 8 * c.dataptrs + 16 * c.garbage := rfl
  refine ⟨?_, ?_, ?_⟩ <;> simp only [initHead] <;> words

theorem initSec_low (m : Mem) (B : Nat) (c : Caps) {id o : Nat} (h1 : 3 ≤ id) (h2 : id ≤ 6)
    (ho : o + 8 ≤ 64) : (initSec m B c id).word (B + o) = m.word (B + o) := by
  have := off_ge c id h1 h2
  simp only [initSec]; words

theorem initSec_max (m : Mem) {B : Nat} {c : Caps} {id : Nat} (lim : B + c.len < W) (h1 : 3 ≤ id)
    (h2 : id ≤ 6) : (initSec m B c id).word (B + off c id) = 16 + ent id * cnt c id := by
  have := off_end c id h1 h2
  simp only [initSec]; words

theorem initSec_num (m : Mem) (B : Nat) (c : Caps) (id : Nat) :
    (initSec m B c id).word (B + off c id + 8) = 0 := by
  simp only [initSec]
  rw [Mem.word_put_eq _ rfl (by decide)]

theorem initSec_other (m : Mem) (B : Nat) (c : Caps) {id id' x : Nat} (h1 : 3 ≤ id) (h2 : id < id')
    (h3 : id' ≤ 6) (hx : x ≤ 8) :
    (initSec m B c id').word (B + off c id + x) = m.word (B + off c id + x) := by
  have : off c id + 16 ≤ off c id' := by
    have h : ∀ i, 3 ≤ i → i ≤ 6 → ∀ j, 3 ≤ j → j ≤ 6 → i < j → off c i + 16 ≤ off c j := by
      refine forall_id ?_ ?_ ?_ ?_ <;> refine forall_id ?_ ?_ ?_ ?_ <;> simp only [off] <;> omega
    exact h id h1 (by omega) id' (by omega) h3 h2
  simp only [initSec]; words

theorem initSec_byte (m : Mem) {B : Nat} {c : Caps} {id x : Nat} (h1 : 3 ≤ id) (h2 : id ≤ 6)
    (hx : x < B ∨ B + c.len ≤ x) : (initSec m B c id).byte x = m.byte x := by
  have := off_end c id h1 h2
  simp only [initSec]
  frame_put

theorem initHead_byte (m : Mem) {B : Nat} {c : Caps} {x : Nat}
    (hx : x < B ∨ B + c.len ≤ x) : (initHead m B c).byte x = m.byte x := by
  have hL : c.len = 128 + 8 * c.slots + 24 * c.objs + 8 * c.dataptrs + 16 * c.garbage := rfl
  simp only [initHead]
  frame_put
  exact Mem.byte_zero_out _ (by omega)

theorem initMem_byte (m : Mem) {B : Nat} {c : Caps} {x : Nat}
    (hx : x < B ∨ B + c.len ≤ x) : (initMem m B c).byte x = m.byte x := by
  simp only [initMem]
  rw [initSec_byte _ (by omega) (by omega) hx, initSec_byte _ (by omega) (by omega) hx,
    initSec_byte _ (by omega) (by omega) hx, initSec_byte _ (by omega) (by omega) hx, initHead_byte _ hx]

theorem initMem_low (m : Mem) (B : Nat) (c : Caps) {o : Nat} (ho : o + 8 ≤ 64) :
    (initMem m B c).word (B + o) = (initHead m B c).word (B + o) := by
  simp only [initMem]
  rw [initSec_low _ _ _ (by omega) (by omega) ho, initSec_low _ _ _ (by omega) (by omega) ho,
    initSec_low _ _ _ (by omega) (by omega) ho, initSec_low _ _ _ (by omega) (by omega) ho]

@[simp] theorem initSec_blocks (m : Mem) (B : Nat) (c : Caps) (id : Nat) :
    (initSec m B c id).blocks = m.blocks := by simp only [initSec, Mem.put_blocks]

@[simp] theorem initHead_blocks (m : Mem) (B : Nat) (c : Caps) : (initHead m B c).blocks = m.blocks := by
  simp only [initHead, Mem.put_blocks, Mem.zero_blocks]

@[simp] theorem initMem_blocks (m : Mem) (B : Nat) (c : Caps) : (initMem m B c).blocks = m.blocks := by
  simp only [initMem, initSec_blocks, initHead_blocks]

theorem Mem.valid_of_blocks {m m' : Mem} (h : m'.blocks = m.blocks) {a n : Nat} :
    m'.valid a n ↔ m.valid a n := by unfold Mem.valid; rw [h]

theorem initMem_layout {m : Mem} {B cap : Nat} {c : Caps} (nz : B ≠ 0) (al : B % 8 = 0)
    (lim : B + cap < W) (val : m.valid B cap) (hlen : c.len ≤ cap) :
    Layout (initMem m B c) B B cap c Content.empty := by
  have lim' : B + c.len < W := by omega
  obtain ⟨l0, l1, l2⟩ := initHead_low m lim'
  refine ⟨⟨nz, nz, al, lim, lim, hlen, (Mem.valid_of_blocks (by simp)).2 val, ⟨?_, ?_, ?_, ?_⟩, ?_, ?_, ?_, ?_, ?_, ?_⟩,
    Content.empty_ok, ?_, ?_, ?_, ?_⟩
  · exact Nat.zero_le _
  · exact Nat.zero_le _
  · exact Nat.zero_le _
  · exact Nat.zero_le _
  · have := initMem_low m B c (o := 0) (by omega)
    rw [Nat.add_zero] at this
    rw [this, l0]
  · rw [initMem_low _ _ _ (by omega), l1]
  · rw [initMem_low _ _ _ (by omega), l2]
  · intro id h1 h2; rw [initMem_low _ _ _ (by omega)]; exact initHead_addr m lim' id h1 h2
  · have o0 : ∀ (mm : Mem) (id id' : Nat), 3 ≤ id → id < id' → id' ≤ 6 →
        (initSec mm B c id').word (B + off c id) = mm.word (B + off c id) := fun mm id id' h1 h2 h3 =>
      initSec_other mm B c (x := 0) h1 h2 h3 (by omega)
    refine forall_id ?_ ?_ ?_ ?_ <;> simp only [initMem]
    · rw [o0 _ 3 6 (by omega) (by omega) (by omega), o0 _ 3 5 (by omega) (by omega) (by omega),
        o0 _ 3 4 (by omega) (by omega) (by omega), initSec_max _ lim' (by omega) (by omega)]
    · rw [o0 _ 4 6 (by omega) (by omega) (by omega), o0 _ 4 5 (by omega) (by omega) (by omega),
        initSec_max _ lim' (by omega) (by omega)]
    · rw [o0 _ 5 6 (by omega) (by omega) (by omega), initSec_max _ lim' (by omega) (by omega)]
    · rw [initSec_max _ lim' (by omega) (by omega)]
  · have o0 : ∀ (mm : Mem) (id id' : Nat), 3 ≤ id → id < id' → id' ≤ 6 →
        (initSec mm B c id').word (B + off c id + 8) = mm.word (B + off c id + 8) :=
      fun mm id id' h1 h2 h3 => initSec_other mm B c (x := 8) h1 h2 h3 (by omega)
    refine forall_id ?_ ?_ ?_ ?_ <;> simp only [initMem]
    · rw [o0 _ 3 6 (by omega) (by omega) (by omega), o0 _ 3 5 (by omega) (by omega) (by omega),
        o0 _ 3 4 (by omega) (by omega) (by omega), initSec_num]; rfl
    · rw [o0 _ 4 6 (by omega) (by omega) (by omega), o0 _ 4 5 (by omega) (by omega) (by omega),
        initSec_num]; rfl
    · rw [o0 _ 5 6 (by omega) (by omega) (by omega), initSec_num]; rfl
    · rw [initSec_num]; rfl
  · intro i r hi; simp [Content.empty] at hi
  · intro i r hi; simp [Content.empty] at hi
  · intro i r hi; simp [Content.empty] at hi
  · intro x hx; simp [Content.empty] at hx

theorem setSec_eq {m : Mem} {B cap : Nat} {c : Caps} {id : Nat} (nz : B ≠ 0) (al : B % 8 = 0)
    (val : m.valid B cap) (hlen : c.len ≤ cap) (h1 : 3 ≤ id) (h2 : id ≤ 6)
    (hw : m.word (B + 8 * id) = B + off c id) {α : Type} (f : Mem → Res α) {v : Nat}
    (hv : v = 16 + ent id * cnt c id) :
    (do let m ← setMaxSize m B id v 8
        let m ← setNumEntities m B id 0 8
        f m) = f (initSec m B c id) := by
  subst hv
  have e := off_end c id h1 h2
  have g := off_ge c id h1 h2
  have hL : c.len = 128 + 8 * c.slots + 24 * c.objs + 8 * c.dataptrs + 16 * c.garbage := rfl
  rw [setMaxSize_eq nz al val (by omega) h1 h2 hw (off_mod c id h1 h2) (by omega), Res.ok_bind,
    setNumEntities_eq nz al (o := off c id) (cap := cap) (by simpa using val) (by omega) h1 h2
      (by rw [Mem.word_put_other _ (by omega)]; exact hw) (off_mod c id h1 h2) (by omega), Res.ok_bind]
  rfl

/-- `NS(ManagedBuffer_init)` on memory whose third header word is 0 or 64. -/
theorem init_spec {m : Mem} {B cap : Nat} {c : Caps} (nz : B ≠ 0) (al : B % 8 = 0)
    (lim : B + cap < W) (val : m.valid B cap)
    (hh : m.word (B + 16) = 0 ∨ m.word (B + 16) = 64) (hlen : c.len ≤ cap) :
    init m B c cap 8 = .ok (initMem m B c, 0, c.len) := by
  have hL : c.len = 128 + 8 * c.slots + 24 * c.objs + 8 * c.dataptrs + 16 * c.garbage := rfl
  have vs : ∀ o k, o + k ≤ cap → m.valid (B + o) k := fun o k ho => Mem.valid_sub val (by omega) (by omega)
  have hH : headerLength m B 8 = .ok 64 := by
    simp only [headerLength, if_pos (by omega : 0 < 8), if_pos nz]
    rw [Mem.load64_ok (by omega) (vs 16 8 (by omega))]
    rcases hh with h | h <;> rw [h] <;> rfl
  have e3 := calcSectionSize_8 c.slots 3 (by omega) (by omega)
  have e4 := calcSectionSize_8 c.objs 4 (by omega) (by omega)
  have e5 := calcSectionSize_8 c.dataptrs 5 (by omega) (by omega)
  have e6 := calcSectionSize_8 c.garbage 6 (by omega) (by omega)
  simp only [ent] at e3 e4 e5 e6
  have hl : 64 + (16 + 8 * c.slots) + (16 + 24 * c.objs) + (16 + 8 * c.dataptrs) + (16 + 16 * c.garbage)
      = c.len := by simp only [Caps.len]; omega
  have st : ∀ (mm : Mem) (o v : Nat), mm.blocks = m.blocks → o % 8 = 0 → o + 8 ≤ cap →
      mm.store64 (B + o) v = .ok (mm.put (B + o) v) := by
    intro mm o v hb ho hc
    refine Mem.store64_ok (by omega) ?_
    have := vs o 8 hc
    exact (Mem.valid_of_blocks hb).2 this
  have st0 : ∀ (mm : Mem) (v : Nat), mm.blocks = m.blocks → mm.store64 B v = .ok (mm.put B v) := by
    intro mm v hb
    have := st mm 0 v hb rfl (by omega)
    simpa using this
  have ad := initHead_addr m (B := B) (c := c) (by omega)
  simp only [init, if_pos (And.intro nz (by omega : (8 : Nat) ≠ 0)), hH, Res.ok_bind, e3, e4, e5, e6, hl,
    fits_ok (show c.len < W by omega), if_pos hlen]
  rw [Mem.memzero_ok (Mem.valid_sub val (by omega) (by omega)), Res.ok_bind, st0 _ _ (by simp), Res.ok_bind,
    st _ 8 _ (by simp) rfl (by omega), Res.ok_bind, st _ 16 _ (by simp) rfl (by omega), Res.ok_bind,
    st _ 24 _ (by simp) rfl (by omega), Res.ok_bind, st _ 32 _ (by simp) rfl (by omega), Res.ok_bind,
    st _ 40 _ (by simp) rfl (by omega), Res.ok_bind, st _ 48 _ (by simp) rfl (by omega), Res.ok_bind]
  change (do
    let m ← setMaxSize (initHead m B c) B 3 _ 8
    _) = _
  rw [setSec_eq (c := c) (v := 16 + 8 * c.slots) nz al (cap := cap) ((Mem.valid_of_blocks (by simp)).2 val) hlen (by omega) (by omega) (ad 3 (by omega) (by omega)) _ rfl]
  rw [setSec_eq (c := c) (v := 16 + 24 * c.objs) nz al (cap := cap) ((Mem.valid_of_blocks (by simp)).2 val) hlen (by omega) (by omega) (by
    rw [initSec_low _ _ _ (by omega) (by omega) (by omega)]; exact ad 4 (by omega) (by omega)) _ rfl]
  rw [setSec_eq (c := c) (v := 16 + 8 * c.dataptrs) nz al (cap := cap) ((Mem.valid_of_blocks (by simp)).2 val) hlen (by omega) (by omega) (by
    rw [initSec_low _ _ _ (by omega) (by omega) (by omega), initSec_low _ _ _ (by omega) (by omega) (by omega)]
    exact ad 5 (by omega) (by omega)) _ rfl]
  rw [setSec_eq (c := c) (v := 16 + 16 * c.garbage) nz al (cap := cap) ((Mem.valid_of_blocks (by simp)).2 val) hlen (by omega) (by omega) (by
    rw [initSec_low _ _ _ (by omega) (by omega) (by omega), initSec_low _ _ _ (by omega) (by omega) (by omega),
      initSec_low _ _ _ (by omega) (by omega) (by omega)]
    exact ad 6 (by omega) (by omega)) _ rfl]
  rfl

end SixTrack.Buf
