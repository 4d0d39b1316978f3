import Verif.Buffer.ReserveLemmas

/-!
# Which bytes the parts of a layout depend on
-/

namespace SixTrack.Buf

theorem Mem.word_congr {m m' : Mem} {a : Nat} (h : ∀ x, a ≤ x → x < a + 8 → m'.byte x = m.byte x) :
    m'.word a = m.word a := Mem.word_eq_of_bytes fun i hi => h _ (by omega) (by omega)

theorem Head.frame {m m' : Mem} {A B cap : Nat} {c n : Caps} (h : Head m A B cap c n)
    (val : m'.valid B cap) (h1 : ∀ x, x < 64 → m'.byte (B + x) = m.byte (B + x))
    (h2 : ∀ id, 3 ≤ id → id ≤ 6 → ∀ x, x < 16 → m'.byte (B + (off c id + x)) = m.byte (B + (off c id + x))) :
    Head m' A B cap c n := by
  have w1 : ∀ o, o + 8 ≤ 64 → m'.word (B + o) = m.word (B + o) := fun o ho =>
    Mem.word_eq_of_bytes fun i hi => by rw [Nat.add_assoc]; exact h1 _ (by omega)
  have w2 : ∀ id, 3 ≤ id → id ≤ 6 → ∀ o, o + 8 ≤ 16 →
      m'.word (B + (off c id + o)) = m.word (B + (off c id + o)) := fun id i1 i2 o ho =>
    Mem.word_eq_of_bytes fun i hi => by
      rw [Nat.add_assoc, Nat.add_assoc]; exact h2 id i1 i2 _ (by omega)
  refine ⟨h.nzA, h.nzB, h.alB, h.limA, h.limB, h.fit, val, h.le, ?_, ?_, ?_, ?_, ?_, ?_⟩
  · have := w1 0 (by omega)
    rw [Nat.add_zero] at this; rw [this, h.h0]
  · rw [w1 _ (by omega), h.h1]
  · rw [w1 _ (by omega), h.h2]
  · intro id i1 i2; rw [w1 _ (by omega), h.addr id i1 i2]
  · intro id i1 i2; have := w2 id i1 i2 0 (by omega)
    rw [Nat.add_zero] at this; rw [this, h.max id i1 i2]
  · intro id i1 i2; rw [Nat.add_assoc, w2 id i1 i2 8 (by omega), ← Nat.add_assoc, h.num id i1 i2]

/-- Header unchanged, numbers of used entries changed. -/
theorem Head.withNums {m m' : Mem} {A B cap : Nat} {c n n' : Caps} (h : Head m A B cap c n)
    (hb : m'.blocks = m.blocks) (hle : n'.Le c) (h1 : ∀ x, x < 64 → m'.byte (B + x) = m.byte (B + x))
    (h2 : ∀ id, 3 ≤ id → id ≤ 6 → ∀ x, x < 8 → m'.byte (B + (off c id + x)) = m.byte (B + (off c id + x)))
    (h3 : ∀ id, 3 ≤ id → id ≤ 6 → m'.word (B + (off c id + 8)) = cnt n' id) :
    Head m' A B cap c n' := by
  have w1 : ∀ o, o + 8 ≤ 64 → m'.word (B + o) = m.word (B + o) := fun o ho =>
    Mem.word_eq_of_bytes fun i hi => by rw [Nat.add_assoc]; exact h1 _ (by omega)
  refine ⟨h.nzA, h.nzB, h.alB, h.limA, h.limB, h.fit, (Mem.valid_of_blocks hb).2 h.val, hle, ?_, ?_, ?_, ?_, ?_, ?_⟩
  · have := w1 0 (by omega)
    rw [Nat.add_zero] at this; rw [this, h.h0]
  · rw [w1 _ (by omega), h.h1]
  · rw [w1 _ (by omega), h.h2]
  · intro id i1 i2; rw [w1 _ (by omega), h.addr id i1 i2]
  · intro id i1 i2
    rw [← h.max id i1 i2]
    exact Mem.word_eq_of_bytes fun i hi => by rw [Nat.add_assoc]; exact h2 id i1 i2 _ hi
  · intro id i1 i2; rw [Nat.add_assoc]; exact h3 id i1 i2

theorem Recs.frame {m m' : Mem} {A B : Nat} {c : Caps} {recs : List (Nat × Nat × Nat)}
    (h : Recs m A B c recs)
    (he : ∀ x, x < 24 * recs.length → m'.byte (B + (off c 4 + 16 + x)) = m.byte (B + (off c 4 + 16 + x))) :
    Recs m' A B c recs := by
  have w : ∀ o, o + 8 ≤ 24 * recs.length → m'.word (B + (off c 4 + 16 + o)) = m.word (B + (off c 4 + 16 + o)) :=
    fun o ho => Mem.word_eq_of_bytes fun i hi => by
      rw [Nat.add_assoc, Nat.add_assoc]; exact he _ (by omega)
  intro i r hi
  have hl := (List.getElem?_eq_some_iff.mp hi).1
  have := h i r hi
  rw [Nat.add_assoc (off c 4 + 16), Nat.add_assoc (off c 4 + 16)] at this ⊢
  rw [w _ (by omega), w _ (by omega), w _ (by omega)]
  exact this

theorem Ptrs.frame {m m' : Mem} {A B : Nat} {c : Caps} {ptrs : List (Nat × Nat)}
    (h : Ptrs m A B c ptrs)
    (he : ∀ x, x < 8 * ptrs.length → m'.byte (B + (off c 5 + 16 + x)) = m.byte (B + (off c 5 + 16 + x)))
    (hp : ∀ p ∈ ptrs, ∀ x, x < 8 → m'.byte (B + (80 + p.1 + x)) = m.byte (B + (80 + p.1 + x))) :
    Ptrs m' A B c ptrs := by
  have w : ∀ o, o + 8 ≤ 8 * ptrs.length → m'.word (B + (off c 5 + 16 + o)) = m.word (B + (off c 5 + 16 + o)) :=
    fun o ho => Mem.word_eq_of_bytes fun i hi => by
      rw [Nat.add_assoc, Nat.add_assoc]; exact he _ (by omega)
  intro i p hi
  have hl := (List.getElem?_eq_some_iff.mp hi).1
  have hm : p ∈ ptrs := List.mem_of_getElem? hi
  rw [w _ (by omega), Mem.word_eq_of_bytes (m := m) (m' := m') (a := B + (80 + p.1)) (b := B + (80 + p.1))
    (fun x hx => by rw [Nat.add_assoc]; exact hp p hm x hx)]
  exact h i p hi

theorem Gars.frame {m m' : Mem} {A B : Nat} {c : Caps} {gs : List (Nat × Nat)}
    (h : Gars m A B c gs)
    (he : ∀ x, x < 16 * gs.length → m'.byte (B + (off c 6 + 16 + x)) = m.byte (B + (off c 6 + 16 + x))) :
    Gars m' A B c gs := by
  have w : ∀ o, o + 8 ≤ 16 * gs.length → m'.word (B + (off c 6 + 16 + o)) = m.word (B + (off c 6 + 16 + o)) :=
    fun o ho => Mem.word_eq_of_bytes fun i hi => by
      rw [Nat.add_assoc, Nat.add_assoc]; exact he _ (by omega)
  intro i p hi
  have hl := (List.getElem?_eq_some_iff.mp hi).1
  have := h i p hi
  rw [Nat.add_assoc (off c 6 + 16)] at this ⊢
  rw [w _ (by omega), w _ (by omega)]
  exact this

theorem Data.frame {m m' : Mem} {B : Nat} {k : Content} (h : Data m B k)
    (he : ∀ x, x < 8 * k.nS → ¬ k.InPtr x → m'.byte (B + (80 + x)) = m.byte (B + (80 + x))) :
    Data m' B k := by
  intro x hx hn
  rw [he x hx hn]; exact h x hx hn

end SixTrack.Buf
