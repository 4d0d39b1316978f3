import Verif.Buffer.InitLemmas

/-!
# Reserving in place
-/

namespace SixTrack.Buf

/-! ## Moving one section -/

/-- The section cannot be moved: it would have to go to the left, into the used part of
the preceding section. -/
def Stuck (cur new bound : Nat) : Prop := new < cur ∧ new < bound

instance (cur new bound : Nat) : Decidable (Stuck cur new bound) := by unfold Stuck; infer_instance

theorem moveSection_stuck (m : Mem) (B : Nat) {cur new size ext bound : Nat} (h : Stuck cur new bound) :
    moveSection m B cur new size ext bound = .ok (m, false) := by
  unfold moveSection
  rw [if_neg (by have := h.1; omega), if_neg (by have := h.1; omega), if_neg (by have := h.2; omega)]

theorem moveSection_ok {m : Mem} {B cap cur new size ext bound : Nat} (val : m.valid B cap)
    (h1 : size ≤ ext) (h2 : cur + size ≤ cap) (h3 : new + ext ≤ cap) (h : ¬ Stuck cur new bound) :
    ∃ m', moveSection m B cur new size ext bound = .ok (m', true) ∧ m'.blocks = m.blocks ∧
      (∀ i, i < size → m'.byte (B + (new + i)) = m.byte (B + (cur + i))) ∧
      ∀ x, x < B + cur ∧ x < B + new ∨ B + (new + ext) ≤ x → m'.byte x = m.byte x := by
  have vs : ∀ o k, o + k ≤ cap → m.valid (B + o) k := fun o k ho => Mem.valid_sub val (by omega) (by omega)
  unfold moveSection
  by_cases e : new = cur
  · subst e
    exact ⟨m, if_pos rfl, rfl, fun _ _ => rfl, fun _ _ => rfl⟩
  rw [if_neg e]
  by_cases hr : cur < new
  · rw [if_pos hr, Mem.memmove_ok (vs _ _ (by omega)) (vs _ _ (by omega)), Res.ok_bind, Mem.memzero_ok
      (by simp only [Mem.move_valid]; exact vs _ _ (by split <;> omega)), Res.ok_bind]
    have hz : (if size < new - cur then size else new - cur) ≤ new - cur ∧
        (if size < new - cur then size else new - cur) ≤ size := by split <;> omega
    generalize (if size < new - cur then size else new - cur) = z at hz
    let m1 := (m.move (B + new) (B + cur) size).zero (B + cur) z
    have b1 : m1.blocks = m.blocks := by simp [m1]
    have b2 : ∀ i, i < size → m1.byte (B + (new + i)) = m.byte (B + (cur + i)) := by
      intro i hi
      simp only [m1]
      rw [Mem.byte_zero_out _ (by omega), Mem.byte_move_in _ (by omega)]
      congr 1; omega
    have b3 : ∀ x, x < B + cur ∧ x < B + new ∨ B + (new + ext) ≤ x → m1.byte x = m.byte x := by
      intro x hx
      simp only [m1]
      rw [Mem.byte_zero_out _ (by omega), Mem.byte_move_out _ (by omega)]
    change ∃ m', (do
      let m ← if size < ext then m1.memzero (B + new + size) (ext - size) else .ok m1
      pure (m, true)) = _ ∧ _
    by_cases hx : size < ext
    · rw [if_pos hx, Mem.memzero_ok ((Mem.valid_of_blocks b1).2 (by
        rw [Nat.add_assoc]; exact vs _ _ (by omega))), Res.ok_bind]
      refine ⟨_, rfl, by simp [b1], fun i hi => ?_, fun x hx => ?_⟩
      · rw [Mem.byte_zero_out _ (by omega), b2 i hi]
      · rw [Mem.byte_zero_out _ (by omega), b3 x hx]
    · rw [if_neg hx, Res.ok_bind]
      exact ⟨_, rfl, b1, b2, b3⟩
  · rw [if_neg hr, if_pos (by unfold Stuck at h; omega),
      Mem.memmove_ok (vs _ _ (by omega)) (vs _ _ (by omega)), Res.ok_bind]
    refine ⟨_, rfl, by simp, fun i hi => ?_, fun x hx => ?_⟩
    · rw [Mem.byte_move_in _ (by omega)]; congr 1; omega
    · rw [Mem.byte_move_out _ (by omega)]

/-! ## Moving all sections -/

/-- The plan for capacities `c`, used numbers `n` and new capacities `c'`. -/
def planOf (c n c' : Caps) : Plan where
  curS := off c 3
  curO := off c 4
  curD := off c 5
  curG := off c 6
  szS := 16 + 8 * n.slots
  szO := 16 + 24 * n.objs
  szD := 16 + 8 * n.dataptrs
  szG := 16 + 16 * n.garbage
  newS := off c' 3
  newO := off c' 4
  newD := off c' 5
  newG := off c' 6
  extS := 16 + 8 * c'.slots
  extO := 16 + 24 * c'.objs
  extD := 16 + 8 * c'.dataptrs
  extG := 16 + 16 * c'.garbage

/-- The garbage section is stuck. -/
def StuckG (c n c' : Caps) : Prop := Stuck (off c 6) (off c' 6) (off c 5 + (16 + 8 * n.dataptrs))

/-- The data pointer section is stuck. -/
def StuckD (c n c' : Caps) : Prop := Stuck (off c 5) (off c' 5) (off c 4 + (16 + 24 * n.objs))

instance (c n c' : Caps) : Decidable (StuckG c n c') := by unfold StuckG; infer_instance
instance (c n c' : Caps) : Decidable (StuckD c n c') := by unfold StuckD; infer_instance

theorem Head.reservePlan {m : Mem} {B cap : Nat} {c n : Caps} (h : Head m B B cap c n) (c' : Caps) :
    reservePlan m B 64 c' 8 = .ok (planOf c n c') := by
  have e3 := calcSectionSize_8 c'.slots 3 (by omega) (by omega)
  have e4 := calcSectionSize_8 c'.objs 4 (by omega) (by omega)
  have e5 := calcSectionSize_8 c'.dataptrs 5 (by omega) (by omega)
  have e6 := calcSectionSize_8 c'.garbage 6 (by omega) (by omega)
  simp only [ent] at e3 e4 e5 e6
  simp only [Buf.reservePlan, h.sectionOffset (id := 3) (by omega) (by omega),
    h.sectionOffset (id := 4) (by omega) (by omega), h.sectionOffset (id := 5) (by omega) (by omega),
    h.sectionOffset (id := 6) (by omega) (by omega), h.sectionSize (id := 3) (by omega) (by omega),
    h.sectionSize (id := 4) (by omega) (by omega), h.sectionSize (id := 5) (by omega) (by omega),
    h.sectionSize (id := 6) (by omega) (by omega), Res.ok_bind, Res.pure_eq, e3, e4, e5, e6, ent, cnt]
  simp only [planOf, off]
  congr 2 <;> omega

/-- If the garbage section is stuck nothing happens. -/
theorem moveSections_stuckG (m : Mem) (B : Nat) {c n c' : Caps} (h : StuckG c n c') :
    moveSections m B (planOf c n c') = .ok (m, false) := by
  simp only [moveSections]
  rw [show moveSection m B (planOf c n c').curG (planOf c n c').newG (planOf c n c').szG
    (planOf c n c').extG ((planOf c n c').curD + (planOf c n c').szD) = .ok (m, false) from
    moveSection_stuck m B h]
  simp [Res.ok_bind, Res.pure_eq]

/-- If the data pointer section is stuck the garbage section has been moved before. -/
theorem moveSections_stuckD {m : Mem} {B cap : Nat} {c n c' : Caps} (val : m.valid B cap)
    (hc : c.len ≤ cap) (hc' : c'.len ≤ cap) (hn : n.Le c) (hn' : n.Le c')
    (hg : ¬ StuckG c n c') (h : StuckD c n c') :
    ∃ m', moveSections m B (planOf c n c') = .ok (m', false) ∧
      moveSection m B (off c 6) (off c' 6) (16 + 16 * n.garbage) (16 + 16 * c'.garbage)
        (off c 5 + (16 + 8 * n.dataptrs)) = .ok (m', true) ∧ m'.blocks = m.blocks ∧
      ∀ x, x < B + off c 6 ∧ x < B + off c' 6 ∨ B + c'.len ≤ x → m'.byte x = m.byte x := by
  have hL : c.len = 128 + 8 * c.slots + 24 * c.objs + 8 * c.dataptrs + 16 * c.garbage := rfl
  have hL' : c'.len = 128 + 8 * c'.slots + 24 * c'.objs + 8 * c'.dataptrs + 16 * c'.garbage := rfl
  have n1 := hn.garbage
  have n2 := hn'.garbage
  obtain ⟨m1, r1, b1, -, f1⟩ := moveSection_ok (size := 16 + 16 * n.garbage) (ext := 16 + 16 * c'.garbage)
    val (by omega) (by simp only [off]; omega) (by simp only [off]; omega) hg
  refine ⟨m1, ?_, r1, b1, fun x hx => f1 x ?_⟩
  · simp only [moveSections]
    rw [show moveSection m B (planOf c n c').curG (planOf c n c').newG (planOf c n c').szG
      (planOf c n c').extG ((planOf c n c').curD + (planOf c n c').szD) = .ok (m1, true) from r1]
    simp only [Res.ok_bind, if_true]
    rw [show moveSection m1 B (planOf c n c').curD (planOf c n c').newD (planOf c n c').szD
      (planOf c n c').extD ((planOf c n c').curO + (planOf c n c').szO) = .ok (m1, false) from
      moveSection_stuck m1 B h]
    simp [Res.ok_bind, Res.pure_eq]
  · simp only [off] at hx ⊢; omega

/-- Otherwise all sections are moved. -/
theorem moveSections_ok {m : Mem} {B cap : Nat} {c n c' : Caps} (val : m.valid B cap)
    (hc : c.len ≤ cap) (hc' : c'.len ≤ cap) (hn : n.Le c) (hn' : n.Le c')
    (hg : ¬ StuckG c n c') (hd : ¬ StuckD c n c') :
    ∃ m', moveSections m B (planOf c n c') = .ok (m', true) ∧ m'.blocks = m.blocks ∧
      (∀ x, x < 80 + 8 * n.slots → m'.byte (B + x) = m.byte (B + x)) ∧
      (∀ i, i < 16 + 24 * n.objs → m'.byte (B + (off c' 4 + i)) = m.byte (B + (off c 4 + i))) ∧
      (∀ i, i < 16 + 8 * n.dataptrs → m'.byte (B + (off c' 5 + i)) = m.byte (B + (off c 5 + i))) ∧
      (∀ i, i < 16 + 16 * n.garbage → m'.byte (B + (off c' 6 + i)) = m.byte (B + (off c 6 + i))) ∧
      ∀ x, x < B ∨ B + c'.len ≤ x → m'.byte x = m.byte x := by
  have hL : c.len = 128 + 8 * c.slots + 24 * c.objs + 8 * c.dataptrs + 16 * c.garbage := rfl
  have hL' : c'.len = 128 + 8 * c'.slots + 24 * c'.objs + 8 * c'.dataptrs + 16 * c'.garbage := rfl
  have s1 := hn.slots
  have s2 := hn'.slots
  have o1 := hn.objs
  have o2 := hn'.objs
  have d1 := hn.dataptrs
  have d2 := hn'.dataptrs
  have g1 := hn.garbage
  have g2 := hn'.garbage
  have ho : ¬ Stuck (off c 4) (off c' 4) (off c 3 + (16 + 8 * n.slots)) := by
    simp only [Stuck, off]; omega
  obtain ⟨mG, rG, bG, eG, fG⟩ := moveSection_ok (size := 16 + 16 * n.garbage)
    (ext := 16 + 16 * c'.garbage) val (by omega) (by simp only [off]; omega) (by simp only [off]; omega) hg
  obtain ⟨mD, rD, bD, eD, fD⟩ := moveSection_ok (size := 16 + 8 * n.dataptrs)
    (ext := 16 + 8 * c'.dataptrs) ((Mem.valid_of_blocks bG).2 val) (by omega) (by simp only [off]; omega)
    (by simp only [off]; omega) hd
  have bD' : mD.blocks = m.blocks := bD.trans bG
  obtain ⟨mO, rO, bO, eO, fO⟩ := moveSection_ok (size := 16 + 24 * n.objs)
    (ext := 16 + 24 * c'.objs) ((Mem.valid_of_blocks bD').2 val) (by omega) (by simp only [off]; omega)
    (by simp only [off]; omega) ho
  have bO' : mO.blocks = m.blocks := bO.trans bD'
  unfold StuckG Stuck at hg
  unfold StuckD Stuck at hd
  simp only [off] at hg hd fG fD fO eG eD eO
  have key : ∃ mS, (if (decide ((planOf c n c').newS = (planOf c n c').curS) && true && true && true) &&
        decide ((planOf c n c').szS < (planOf c n c').extS) then
      mO.memzero (B + (planOf c n c').newS + (planOf c n c').szS)
        ((planOf c n c').extS - (planOf c n c').szS) else Res.ok mO) = .ok mS ∧ mS.blocks = mO.blocks ∧
      ∀ x, x < B + (80 + 8 * n.slots) ∨ B + (80 + 8 * c'.slots) ≤ x → mS.byte x = mO.byte x := by
    simp only [planOf, off, decide_true, Bool.and_true, Bool.true_and, decide_eq_true_eq]
    by_cases hz : 16 + 8 * n.slots < 16 + 8 * c'.slots
    · rw [if_pos hz, Mem.memzero_ok ((Mem.valid_of_blocks bO').2 (Mem.valid_sub val (by omega) (by omega)))]
      exact ⟨_, rfl, by simp, fun x hx => Mem.byte_zero_out _ (by omega)⟩
    · rw [if_neg hz]
      exact ⟨_, rfl, rfl, fun _ _ => rfl⟩
  obtain ⟨mS, rS, bS, fS⟩ := key
  refine ⟨mS, ?_, bS.trans bO', ?_, ?_, ?_, ?_, ?_⟩
  · simp only [moveSections]
    rw [show moveSection m B (planOf c n c').curG (planOf c n c').newG (planOf c n c').szG
      (planOf c n c').extG ((planOf c n c').curD + (planOf c n c').szD) = .ok (mG, true) from rG]
    simp only [Res.ok_bind, if_true]
    rw [show moveSection mG B (planOf c n c').curD (planOf c n c').newD (planOf c n c').szD
      (planOf c n c').extD ((planOf c n c').curO + (planOf c n c').szO) = .ok (mD, true) from rD]
    simp only [Res.ok_bind, Bool.and_true, if_true]
    rw [show moveSection mD B (planOf c n c').curO (planOf c n c').newO (planOf c n c').szO
      (planOf c n c').extO ((planOf c n c').curS + (planOf c n c').szS) = .ok (mO, true) from rO]
    simp only [Bool.and_true] at rS
    simp only [Res.ok_bind, Bool.and_true]
    split at rS <;> rename_i hq
    · rw [if_pos hq, rS]; rfl
    · rw [if_neg hq]; cases rS; rfl
  · intro x hx
    rw [fS _ (by omega), fO _ (by omega), fD _ (by omega), fG _ (by omega)]
  · intro i hi
    simp only [off]
    rw [fS _ (by omega), eO i hi, fD _ (by omega), fG _ (by omega)]
  · intro i hi
    simp only [off]
    rw [fS _ (by omega), fO _ (by omega), eD i hi, fG _ (by omega)]
  · intro i hi
    simp only [off]
    rw [fS _ (by omega), fO _ (by omega), fD _ (by omega), eG i hi]
  · intro x hx
    rw [fS _ (by omega), fO _ (by omega), fD _ (by omega), fG _ (by omega)]

/-! ## Writing the new header -/

/-- The memory after the header has been updated for capacities `c`. -/
def reservedHead (m : Mem) (B : Nat) (c : Caps) : Mem :=
  ((((m.put (B + 8) c.len).put (B + 24) (B + off c 3)).put (B + 32) (B + off c 4)).put (B + 40)
    (B + off c 5)).put (B + 48) (B + off c 6)

/-- The memory after header and section headers have been updated for capacities `c`. -/
def reservedMem (m : Mem) (B : Nat) (c : Caps) : Mem :=
  ((((reservedHead m B c).put (B + off c 3) (16 + 8 * c.slots)).put (B + off c 4) (16 + 24 * c.objs)).put
    (B + off c 5) (16 + 8 * c.dataptrs)).put (B + off c 6) (16 + 16 * c.garbage)

theorem reservedHead_blocks (m : Mem) (B : Nat) (c : Caps) : (reservedHead m B c).blocks = m.blocks := by
  simp only [reservedHead, Mem.put_blocks]

theorem reservedMem_blocks (m : Mem) (B : Nat) (c : Caps) : (reservedMem m B c).blocks = m.blocks := by
  simp only [reservedMem, Mem.put_blocks, reservedHead_blocks]

theorem reservedHead_addr (m : Mem) {B : Nat} {c : Caps} (lim : B + c.len < W) :
    ∀ id, 3 ≤ id → id ≤ 6 → (reservedHead m B c).word (B + 8 * id) = B + off c id := by
  have hL : c.len = 128 + 8 * c.slots + 24 * c.objs + 8 * c.dataptrs + 16 * c.garbage := rfl
  refine forall_id ?_ ?_ ?_ ?_ <;> simp only [reservedHead, off] <;> words

theorem writeReserved_ok {m : Mem} {B cap : Nat} {c n c' : Caps} (nz : B ≠ 0) (al : B % 8 = 0)
    (val : m.valid B cap) (lim : B + cap < W) (hc : c'.len ≤ cap) :
    writeReserved m B c'.len (planOf c n c') 8 = .ok (reservedMem m B c') := by
  have hL : c'.len = 128 + 8 * c'.slots + 24 * c'.objs + 8 * c'.dataptrs + 16 * c'.garbage := rfl
  have st : ∀ (mm : Mem) (o v : Nat), mm.blocks = m.blocks → o % 8 = 0 → o + 8 ≤ cap →
      mm.store64 (B + o) v = .ok (mm.put (B + o) v) := fun mm o v hb ho hc =>
    Mem.store64_ok (by omega) ((Mem.valid_of_blocks hb).2 (Mem.valid_sub val (by omega) (by omega)))
  have sm : ∀ (mm : Mem) (id v : Nat), mm.blocks = m.blocks → 3 ≤ id → id ≤ 6 →
      mm.word (B + 8 * id) = B + off c' id → setMaxSize mm B id v 8 = .ok (mm.put (B + off c' id) v) :=
    fun mm id v hb h1 h2 hw => setMaxSize_eq nz al ((Mem.valid_of_blocks hb).2 val) (by omega) h1 h2 hw
      (off_mod c' id h1 h2) (by have := off_end c' id h1 h2; omega)
  have ad := reservedHead_addr m (B := B) (c := c') (by omega)
  have wp : ∀ (mm : Mem) (id id' v : Nat), 3 ≤ id → id ≤ 6 → 3 ≤ id' → id' ≤ 6 →
      (mm.put (B + off c' id) v).word (B + 8 * id') = mm.word (B + 8 * id') := by
    intro mm id id' v h1 h2 h3 h4
    exact Mem.word_put_other _ (by have := off_ge c' id h1 h2; omega)
  simp only [writeReserved]
  rw [st _ 8 _ rfl rfl (by omega), Res.ok_bind, st _ 24 _ (by simp) rfl (by omega), Res.ok_bind,
    st _ 32 _ (by simp) rfl (by omega), Res.ok_bind, st _ 40 _ (by simp) rfl (by omega), Res.ok_bind,
    st _ 48 _ (by simp) rfl (by omega), Res.ok_bind]
  change (do
    let m ← setMaxSize (reservedHead m B c') B 3 _ 8
    _) = _
  rw [sm _ 3 _ (by simp [reservedHead_blocks]) (by omega) (by omega) (ad 3 (by omega) (by omega)), Res.ok_bind,
    sm _ 4 _ (by simp [reservedHead_blocks]) (by omega) (by omega) (by
      rw [wp _ 3 4 _ (by omega) (by omega) (by omega) (by omega)]; exact ad 4 (by omega) (by omega)),
    Res.ok_bind,
    sm _ 5 _ (by simp [reservedHead_blocks]) (by omega) (by omega) (by
      rw [wp _ 4 5 _ (by omega) (by omega) (by omega) (by omega),
        wp _ 3 5 _ (by omega) (by omega) (by omega) (by omega)]; exact ad 5 (by omega) (by omega)),
    Res.ok_bind,
    sm _ 6 _ (by simp [reservedHead_blocks]) (by omega) (by omega) (by
      rw [wp _ 5 6 _ (by omega) (by omega) (by omega) (by omega),
        wp _ 4 6 _ (by omega) (by omega) (by omega) (by omega),
        wp _ 3 6 _ (by omega) (by omega) (by omega) (by omega)]; exact ad 6 (by omega) (by omega))]
  rfl

/-- Words apart from the updated ones. -/
theorem reservedMem_word (m : Mem) (B : Nat) (c : Caps) {o : Nat}
    (h1 : o + 8 ≤ 8 ∨ 16 ≤ o ∧ o + 8 ≤ 24 ∨ 64 ≤ o)
    (h2 : ∀ id, 3 ≤ id → id ≤ 6 → o + 8 ≤ off c id ∨ off c id + 8 ≤ o) :
    (reservedMem m B c).word (B + o) = m.word (B + o) := by
  have k3 := h2 3 (by omega) (by omega)
  have k4 := h2 4 (by omega) (by omega)
  have k5 := h2 5 (by omega) (by omega)
  have k6 := h2 6 (by omega) (by omega)
  simp only [reservedMem, reservedHead]
  words

theorem reservedMem_byte (m : Mem) (B : Nat) (c : Caps) {x : Nat}
    (h1 : x < B ∨ B + 64 ≤ x)
    (h2 : ∀ id, 3 ≤ id → id ≤ 6 → x < B + off c id ∨ B + off c id + 8 ≤ x) :
    (reservedMem m B c).byte x = m.byte x := by
  have k3 := h2 3 (by omega) (by omega)
  have k4 := h2 4 (by omega) (by omega)
  have k5 := h2 5 (by omega) (by omega)
  have k6 := h2 6 (by omega) (by omega)
  simp only [reservedMem, reservedHead]
  frame_put

theorem reservedMem_max (m : Mem) {B : Nat} {c : Caps} (lim : B + c.len < W) :
    ∀ id, 3 ≤ id → id ≤ 6 → (reservedMem m B c).word (B + off c id) = 16 + ent id * cnt c id := by
  have hL : c.len = 128 + 8 * c.slots + 24 * c.objs + 8 * c.dataptrs + 16 * c.garbage := rfl
  refine forall_id ?_ ?_ ?_ ?_ <;> simp only [reservedMem, off, ent, cnt] <;> words

theorem reservedMem_addr (m : Mem) {B : Nat} {c : Caps} (lim : B + c.len < W) :
    ∀ id, 3 ≤ id → id ≤ 6 → (reservedMem m B c).word (B + 8 * id) = B + off c id := by
  intro id h1 h2
  rw [← reservedHead_addr m lim id h1 h2]
  simp only [reservedMem, off]; words

theorem reservedMem_len (m : Mem) {B : Nat} {c : Caps} (lim : B + c.len < W) :
    (reservedMem m B c).word (B + 8) = c.len := by
  simp only [reservedMem, reservedHead, off]; words

/-! ## Reserving -/

theorem cap_iff {c c' : Caps} : (c'.objs ≠ c.objs ∨ c'.slots ≠ c.slots ∨ c'.dataptrs ≠ c.dataptrs ∨
    c'.garbage ≠ c.garbage) ↔ c' ≠ c := by
  constructor
  · rintro h rfl; simp at h
  · intro h
    rcases c with ⟨a, b, d, e⟩
    rcases c' with ⟨a', b', d', e'⟩
    simp only [ne_eq, Caps.mk.injEq] at h ⊢
    omega

theorem reserve_eq {m : Mem} {B cap maxLen : Nat} {c n : Caps} (h : Head m B B cap c n) (c' : Caps) :
    reserve m B c' maxLen 8 =
      if c.len ≤ maxLen ∧ n.objs ≤ c'.objs ∧ n.slots ≤ c'.slots ∧ n.dataptrs ≤ c'.dataptrs ∧
          n.garbage ≤ c'.garbage then
        if c' ≠ c then do
          let newLen ← fits c'.len
          if newLen ≤ maxLen then do
            let (m, fin) ← moveSections m B (planOf c n c')
            if fin then do
              let m ← writeReserved m B newLen (planOf c n c') 8
              return (m, 0, newLen)
            else return (m, -1, newLen)
          else return (m, -1, newLen)
        else return (m, 0, c.len)
      else return (m, -1, 0) := by
  simp only [reserve, h.maxNumEntities (id := 3) (by omega) (by omega),
    h.maxNumEntities (id := 4) (by omega) (by omega), h.maxNumEntities (id := 5) (by omega) (by omega),
    h.maxNumEntities (id := 6) (by omega) (by omega), h.numEntities (id := 3) (by omega) (by omega),
    h.numEntities (id := 4) (by omega) (by omega), h.numEntities (id := 5) (by omega) (by omega),
    h.numEntities (id := 6) (by omega) (by omega), h.bufferLength, Res.ok_bind, cnt, calcBufferLength_8 h,
    h.headerLength, h.reservePlan]
  have hL : 0 < c.len := by simp only [Caps.len]; omega
  by_cases h1 : c.len ≤ maxLen ∧ n.objs ≤ c'.objs ∧ n.slots ≤ c'.slots ∧ n.dataptrs ≤ c'.dataptrs ∧
      n.garbage ≤ c'.garbage
  · rw [if_pos ⟨h.nzB, by omega, hL, h1⟩, if_pos h1]
    by_cases h2 : c' ≠ c
    · rw [if_pos (cap_iff.2 h2), if_pos h2]
    · rw [if_neg (fun hh => h2 (cap_iff.1 hh)), if_neg h2]
  · rw [if_neg (fun hh => h1 hh.2.2.2), if_neg h1]

/-- A successful `NS(ManagedBuffer_reserve)`: the new capacities, the same content. -/
theorem reserve_ok {m : Mem} {B cap maxLen : Nat} {c c' : Caps} {k : Content}
    (h : Layout m B B cap c k) (hm : maxLen ≤ cap) (hc : c.len ≤ maxLen) (hc' : c'.len ≤ maxLen)
    (hn : k.counts.Le c') (hg : ¬ StuckG c k.counts c') (hd : ¬ StuckD c k.counts c') :
    ∃ m', reserve m B c' maxLen 8 = .ok (m', 0, c'.len) ∧ m'.blocks = m.blocks ∧
      Layout m' B B cap c' k ∧ ∀ x, x < B ∨ B + maxLen ≤ x → m'.byte x = m.byte x := by
  rw [reserve_eq h.head, if_pos ⟨hc, hn.objs, hn.slots, hn.dataptrs, hn.garbage⟩]
  by_cases e : c' = c
  · subst e
    exact ⟨m, by simp, rfl, h, fun _ _ => rfl⟩
  have lim := h.head.limB
  have hL' : c'.len = 128 + 8 * c'.slots + 24 * c'.objs + 8 * c'.dataptrs + 16 * c'.garbage := rfl
  obtain ⟨mm, rm, bm, eS, eO, eD, eG, fm⟩ := moveSections_ok h.head.val (by omega : c.len ≤ cap)
    (by omega : c'.len ≤ cap) h.head.le hn hg hd
  have vm : mm.valid B cap := (Mem.valid_of_blocks bm).2 h.head.val
  rw [if_pos e, fits_ok (by omega)]
  simp only [Res.ok_bind, if_pos hc', rm, if_true]
  rw [writeReserved_ok h.head.nzB h.head.alB vm lim (by omega)]
  refine ⟨_, rfl, by rw [reservedMem_blocks, bm], ?_, ?_⟩
  · have nS : k.counts.slots = k.nS := rfl
    have nO : k.counts.objs = k.recs.length := rfl
    have nD : k.counts.dataptrs = k.ptrs.length := rfl
    have nG : k.counts.garbage = k.gs.length := rfl
    rw [nS] at eS; rw [nO] at eO; rw [nD] at eD; rw [nG] at eG
    have leS : k.nS ≤ c'.slots := hn.slots
    have leO : k.recs.length ≤ c'.objs := hn.objs
    have leD : k.ptrs.length ≤ c'.dataptrs := hn.dataptrs
    have leG : k.gs.length ≤ c'.garbage := hn.garbage
    have wS : ∀ o, o + 8 ≤ 80 + 8 * k.nS → mm.word (B + o) = m.word (B + o) := fun o ho =>
      Mem.word_eq_of_bytes fun i hi => by rw [Nat.add_assoc]; exact eS _ (by omega)
    have wO : ∀ o, o + 8 ≤ 16 + 24 * k.recs.length → mm.word (B + (off c' 4 + o)) = m.word (B + (off c 4 + o)) :=
      fun o ho => Mem.word_eq_of_bytes fun i hi => by
        rw [Nat.add_assoc, Nat.add_assoc (off c' 4), Nat.add_assoc, Nat.add_assoc]; exact eO _ (by omega)
    have wD : ∀ o, o + 8 ≤ 16 + 8 * k.ptrs.length → mm.word (B + (off c' 5 + o)) = m.word (B + (off c 5 + o)) :=
      fun o ho => Mem.word_eq_of_bytes fun i hi => by
        rw [Nat.add_assoc, Nat.add_assoc (off c' 5), Nat.add_assoc, Nat.add_assoc]; exact eD _ (by omega)
    have wG : ∀ o, o + 8 ≤ 16 + 16 * k.gs.length → mm.word (B + (off c' 6 + o)) = m.word (B + (off c 6 + o)) :=
      fun o ho => Mem.word_eq_of_bytes fun i hi => by
        rw [Nat.add_assoc, Nat.add_assoc (off c' 6), Nat.add_assoc, Nat.add_assoc]; exact eG _ (by omega)
    have fS : ∀ o, 72 ≤ o → o + 8 ≤ 80 + 8 * k.nS →
        (reservedMem mm B c').word (B + o) = m.word (B + o) := by
      intro o h1 h2
      rw [reservedMem_word _ _ _ (by omega) (forall_id (by simp only [off]; omega) (by simp only [off]; omega)
        (by simp only [off]; omega) (by simp only [off]; omega)), wS o h2]
    have fO : ∀ o, 8 ≤ o → o + 8 ≤ 16 + 24 * k.recs.length →
        (reservedMem mm B c').word (B + (off c' 4 + o)) = m.word (B + (off c 4 + o)) := by
      intro o h1 h2
      rw [reservedMem_word _ _ _ (by simp only [off]; omega) (forall_id (by simp only [off]; omega)
        (by simp only [off]; omega) (by simp only [off]; omega) (by simp only [off]; omega)), wO o h2]
    have fD : ∀ o, 8 ≤ o → o + 8 ≤ 16 + 8 * k.ptrs.length →
        (reservedMem mm B c').word (B + (off c' 5 + o)) = m.word (B + (off c 5 + o)) := by
      intro o h1 h2
      rw [reservedMem_word _ _ _ (by simp only [off]; omega) (forall_id (by simp only [off]; omega)
        (by simp only [off]; omega) (by simp only [off]; omega) (by simp only [off]; omega)), wD o h2]
    have fG : ∀ o, 8 ≤ o → o + 8 ≤ 16 + 16 * k.gs.length →
        (reservedMem mm B c').word (B + (off c' 6 + o)) = m.word (B + (off c 6 + o)) := by
      intro o h1 h2
      rw [reservedMem_word _ _ _ (by simp only [off]; omega) (forall_id (by simp only [off]; omega)
        (by simp only [off]; omega) (by simp only [off]; omega) (by simp only [off]; omega)), wG o h2]
    refine ⟨⟨h.head.nzA, h.head.nzB, h.head.alB, lim, lim, by omega,
      (Mem.valid_of_blocks (reservedMem_blocks _ _ _)).2 vm, hn, ?_, reservedMem_len mm (by omega), ?_,
      reservedMem_addr mm (by omega), reservedMem_max mm (by omega), ?_⟩, h.ok, ?_, ?_, ?_, ?_⟩
    · have e0 := reservedMem_word mm B c' (o := 0) (by omega) (fun id h1 h2 => by
        have := off_ge c' id h1 h2; omega)
      have e1 := wS 0 (by omega)
      rw [Nat.add_zero] at e0 e1
      rw [e0, e1, h.head.h0]
    · rw [reservedMem_word mm B c' (o := 16) (by omega) (fun id h1 h2 => by
        have := off_ge c' id h1 h2; omega), wS 16 (by omega), h.head.h2]
    · have num := h.head.num
      refine forall_id ?_ ?_ ?_ ?_
      · rw [Nat.add_assoc, fS _ (by simp only [off]; omega) (by simp only [off]; omega)]
        exact num 3 (by omega) (by omega)
      · rw [Nat.add_assoc, fO _ (by omega) (by omega), ← Nat.add_assoc]
        exact num 4 (by omega) (by omega)
      · rw [Nat.add_assoc, fD _ (by omega) (by omega), ← Nat.add_assoc]
        exact num 5 (by omega) (by omega)
      · rw [Nat.add_assoc, fG _ (by omega) (by omega), ← Nat.add_assoc]
        exact num 6 (by omega) (by omega)
    · intro i r hi
      have hl := (List.getElem?_eq_some_iff.mp hi).1
      have hr := h.recs i r hi
      simp only [Nat.add_assoc] at hr ⊢
      rw [fO _ (by omega) (by omega), fO _ (by omega) (by omega), fO _ (by omega) (by omega)]
      exact hr
    · intro i r hi
      have hl := (List.getElem?_eq_some_iff.mp hi).1
      have hp := h.ok.ptr_ok r (List.mem_of_getElem? hi)
      have hr := h.ptrs i r hi
      simp only [Nat.add_assoc] at hr ⊢
      rw [fD _ (by omega) (by omega), fS _ (by omega) (by omega)]
      exact hr
    · intro i r hi
      have hl := (List.getElem?_eq_some_iff.mp hi).1
      have hr := h.gars i r hi
      simp only [Nat.add_assoc] at hr ⊢
      rw [fG _ (by omega) (by omega), fG _ (by omega) (by omega)]
      exact hr
    · intro x hx hp
      rw [reservedMem_byte _ _ _ (by omega) (forall_id (by simp only [off]; omega) (by simp only [off]; omega)
        (by simp only [off]; omega) (by simp only [off]; omega)), eS _ (by omega)]
      exact h.data x hx hp
  · intro x hx
    rw [reservedMem_byte _ _ _ (by omega) (fun id h1 h2 => by have := off_end c' id h1 h2; omega),
      fm x (by omega)]

/-- The garbage section is stuck: failure, nothing changed. -/
theorem reserve_stuckG {m : Mem} {B cap maxLen : Nat} {c n c' : Caps} (h : Head m B B cap c n)
    (hm : maxLen ≤ cap) (hc : c.len ≤ maxLen) (hc' : c'.len ≤ maxLen)
    (hn : n.Le c') (hg : StuckG c n c') : reserve m B c' maxLen 8 = .ok (m, -1, c'.len) := by
  have e : c' ≠ c := by rintro rfl; exact absurd hg.1 (by omega)
  have lim := h.limB
  rw [reserve_eq h, if_pos ⟨hc, hn.objs, hn.slots, hn.dataptrs, hn.garbage⟩, if_pos e, fits_ok (by omega)]
  simp only [Res.ok_bind, if_pos hc', moveSections_stuckG m B hg]
  rfl

/-- The data pointer section is stuck: failure, the garbage section has been moved. -/
theorem reserve_stuckD {m : Mem} {B cap maxLen : Nat} {c n c' : Caps} (h : Head m B B cap c n)
    (hm : maxLen ≤ cap) (hc : c.len ≤ maxLen) (hc' : c'.len ≤ maxLen)
    (hn : n.Le c') (hg : ¬ StuckG c n c') (hd : StuckD c n c') :
    ∃ m', reserve m B c' maxLen 8 = .ok (m', -1, c'.len) ∧
      moveSection m B (off c 6) (off c' 6) (16 + 16 * n.garbage) (16 + 16 * c'.garbage)
        (off c 5 + (16 + 8 * n.dataptrs)) = .ok (m', true) ∧ m'.blocks = m.blocks ∧
      ∀ x, x < B + off c 6 ∧ x < B + off c' 6 ∨ B + c'.len ≤ x → m'.byte x = m.byte x := by
  have e : c' ≠ c := by rintro rfl; exact absurd hd.1 (by omega)
  have lim := h.limB
  obtain ⟨m', r, r1, b, f⟩ := moveSections_stuckD h.val (by omega) (by omega : c'.len ≤ cap) h.le hn hg hd
  refine ⟨m', ?_, r1, b, f⟩
  rw [reserve_eq h, if_pos ⟨hc, hn.objs, hn.slots, hn.dataptrs, hn.garbage⟩, if_pos e, fits_ok (by omega)]
  simp only [Res.ok_bind, if_pos hc', r]
  rfl

/-- A request that is smaller than what is used, or a buffer that is longer than the
available memory: failure, nothing changed. -/
theorem reserve_refused {m : Mem} {B cap maxLen : Nat} {c n c' : Caps} (h : Head m B B cap c n)
    (hr : ¬ (c.len ≤ maxLen ∧ n.Le c')) : reserve m B c' maxLen 8 = .ok (m, -1, 0) := by
  rw [reserve_eq h, if_neg fun hh => hr ⟨hh.1, ⟨hh.2.1, hh.2.2.1, hh.2.2.2.1, hh.2.2.2.2⟩⟩]
  rfl

/-- The new length does not fit: failure, nothing changed. -/
theorem reserve_too_long {m : Mem} {B cap maxLen : Nat} {c n c' : Caps} (h : Head m B B cap c n)
    (hc : c.len ≤ maxLen) (hc' : maxLen < c'.len) (hw : c'.len < W)
    (hn : n.Le c') : reserve m B c' maxLen 8 = .ok (m, -1, c'.len) := by
  have e : c' ≠ c := by rintro rfl; omega
  rw [reserve_eq h, if_pos ⟨hc, hn.objs, hn.slots, hn.dataptrs, hn.garbage⟩, if_pos e, fits_ok hw]
  simp only [Res.ok_bind, if_neg (by omega : ¬ c'.len ≤ maxLen)]
  rfl

end SixTrack.Buf
