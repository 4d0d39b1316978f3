import Verif.Buffer.ApplyLemmas

/-!
# Storing an object
-/

namespace SixTrack.Buf

/-- Number of bytes of an attribute. -/
def AttrSpec.bytes (a : AttrSpec) : Nat := a.count * a.size

/-- Number of bytes an attribute occupies in the slots. -/
def AttrSpec.ext (a : AttrSpec) : Nat := roundUp a.bytes 8

/-- Number of bytes the attributes occupy. -/
def extSum (as : List AttrSpec) : Nat := (as.map AttrSpec.ext).sum

theorem extSum_nil : extSum [] = 0 := rfl

theorem extSum_cons (a : AttrSpec) (as : List AttrSpec) : extSum (a :: as) = a.ext + extSum as := by
  simp [extSum]

theorem roundUp_ge (n : Nat) : n ≤ roundUp n 8 := by rw [roundUp_8]; omega

theorem roundUp_mod (n : Nat) : roundUp n 8 % 8 = 0 := by rw [roundUp_8]; omega

theorem AttrSpec.ext_ge (a : AttrSpec) : a.bytes ≤ a.ext := roundUp_ge _

theorem AttrSpec.ext_mod (a : AttrSpec) : a.ext % 8 = 0 := roundUp_mod _

theorem extSum_mod : ∀ as : List AttrSpec, extSum as % 8 = 0
  | [] => rfl
  | a :: as => by rw [extSum_cons]; have := extSum_mod as; have := a.ext_mod; omega

theorem extSum_take_le (as : List AttrSpec) {i : Nat} {a : AttrSpec} (h : as[i]? = some a) :
    extSum (as.take i) + a.ext ≤ extSum as := by
  induction as generalizing i with
  | nil => simp at h
  | cons b bs ih =>
    cases i with
    | zero =>
      simp only [List.getElem?_cons_zero, Option.some.injEq] at h
      subst h
      simp [extSum_cons, extSum_nil]
    | succ i =>
      simp only [List.getElem?_cons_succ] at h
      simp only [List.take_succ_cons, extSum_cons]
      have := ih h; omega

theorem extSum_take_mono (as : List AttrSpec) {i j : Nat} {a : AttrSpec} (hi : as[i]? = some a)
    (hij : i < j) : extSum (as.take i) + a.ext ≤ extSum (as.take j) := by
  have e : as.take i = (as.take j).take i := by rw [List.take_take, Nat.min_eq_left (by omega)]
  rw [e]
  refine extSum_take_le _ ?_
  rw [List.getElem?_take_of_lt hij, hi]

/-- The prediction for slot size 8. -/
theorem predictSlots_8 {size : Nat} (h : 0 < size) (as : List AttrSpec) :
    8 * predictSlots size (as.map fun a => (a.size, a.count)) 8 = roundUp size 8 + extSum as := by
  have hf : ∀ (as : List AttrSpec) (r : Nat),
      (as.map fun a => (a.size, a.count)).foldl (fun r a => r + roundUp (a.1 * a.2) 8) r = r + extSum as := by
    intro as
    induction as with
    | nil => intro r; simp [extSum_nil]
    | cons a as ih =>
      intro r
      simp only [List.map_cons, List.foldl_cons, ih, extSum_cons, AttrSpec.ext, AttrSpec.bytes, Nat.mul_comm a.count]
      omega
  have e1 := roundUp_mod size
  have e2 := extSum_mod as
  simp only [predictSlots]
  rw [if_pos ⟨by omega, h⟩]
  by_cases hn : as = []
  · subst hn
    simp only [List.map_nil, ne_eq, not_true_eq_false, if_false, extSum_nil]
    omega
  · rw [if_pos (by simpa using hn), hf, if_neg (by omega)]
    omega

theorem Mem.memcpy_ok {m : Mem} {d s n : Nat} (h1 : m.valid d n) (h2 : m.valid s n)
    (h3 : n = 0 ∨ d + n ≤ s ∨ s + n ≤ d) : m.memcpy d s n = .ok (m.move d s n) := if_pos ⟨h1, h2, h3⟩

/-! ## The loop over the attributes -/

/-- The source of an attribute: a null pointer stands for zeros; otherwise the bytes
are readable memory outside of the buffer. -/
def SrcOk (m : Mem) (lo hi p : Nat) (a : AttrSpec) (db : Nat → UInt8) : Prop :=
  (m.word p = 0 ∧ ∀ j, j < a.bytes → db j = 0) ∨
  (m.word p ≠ 0 ∧ m.valid (m.word p) a.bytes ∧
    (a.bytes = 0 ∨ m.word p + a.bytes ≤ lo ∨ hi ≤ m.word p) ∧
    ∀ j, j < a.bytes → m.byte (m.word p + j) = db j)

theorem SrcOk.frame {m m' : Mem} {lo hi p : Nat} {a : AttrSpec} {db : Nat → UInt8}
    (h : SrcOk m lo hi p a db) (hb : m'.blocks = m.blocks)
    (hw : m'.word p = m.word p) (hf : ∀ x, x < lo ∨ hi ≤ x → m'.byte x = m.byte x) :
    SrcOk m' lo hi p a db := by
  rcases h with ⟨h1, h2⟩ | ⟨h1, h2, h3, h4⟩
  · exact Or.inl ⟨by rw [hw, h1], h2⟩
  · refine Or.inr ⟨by rw [hw]; exact h1, by rw [hw]; exact (Mem.valid_of_blocks hb).2 h2, by rw [hw]; exact h3,
      fun j hj => ?_⟩
    rw [hw, hf _ (by omega), h4 j hj]

/-- Copying one attribute. -/
theorem copyAttr_ok {m : Mem} {lo hi p dest : Nat} {a : AttrSpec} {db : Nat → UInt8}
    (hs : SrcOk m lo hi p a db) (hlo : lo ≤ dest) (hhi : dest + a.ext ≤ hi) (val : m.valid dest a.ext) :
    ∃ m', copyAttr m 8 dest (m.word p) (a.count * a.size) = .ok m' ∧ m'.blocks = m.blocks ∧
      (∀ j, j < a.bytes → m'.byte (dest + j) = db j) ∧
      ∀ x, x < dest ∨ dest + a.ext ≤ x → m'.byte x = m.byte x := by
  have hb : a.count * a.size = a.bytes := rfl
  have he : roundUp a.bytes 8 = a.ext := rfl
  have hge := a.ext_ge
  unfold copyAttr
  rw [hb, he]
  rcases hs with ⟨h1, h2⟩ | ⟨h1, h2, h3, h4⟩
  · rw [if_neg (by rw [h1]; simp), Mem.memzero_ok val]
    refine ⟨_, rfl, by simp, fun j hj => ?_, fun x hx => Mem.byte_zero_out _ hx⟩
    rw [Mem.byte_zero_in _ (by omega), h2 j hj]
  · rw [if_pos h1, Mem.memcpy_ok (Mem.valid_sub val (by omega) (by omega)) h2 (by omega), Res.ok_bind]
    by_cases hlt : a.bytes < a.ext
    · rw [if_pos hlt, Mem.memzero_ok (by simp only [Mem.move_valid]; exact Mem.valid_sub val (by omega) (by omega))]
      refine ⟨_, rfl, by simp, fun j hj => ?_, fun x hx => ?_⟩
      · rw [Mem.byte_zero_out _ (by omega), Mem.byte_move_in _ (by omega), Nat.add_sub_cancel_left, h4 j hj]
      · rw [Mem.byte_zero_out _ (by omega), Mem.byte_move_out _ (by omega)]
    · rw [if_neg hlt]
      refine ⟨_, rfl, by simp, fun j hj => ?_, fun x hx => ?_⟩
      · rw [Mem.byte_move_in _ (by omega), Nat.add_sub_cancel_left, h4 j hj]
      · rw [Mem.byte_move_out _ (by omega)]

theorem addAttrs_ok {lo hi obj hsz : Nat} (db : AttrSpec → Nat → UInt8) (al : obj % 8 = 0) (hlo : lo ≤ obj)
    (hhi : hi < W) :
    ∀ (as : List AttrSpec) (m : Mem) (dest out : Nat), m.valid lo (hi - lo) → dest % 8 = 0 → out % 8 = 0 →
      obj + hsz ≤ dest → dest + extSum as ≤ out → out + 8 * as.length ≤ hi →
      (∀ a ∈ as, a.off % 8 = 0 ∧ a.off + 8 ≤ hsz) → as.Pairwise (fun a b => a.off ≠ b.off) →
      (∀ a ∈ as, SrcOk m lo hi (obj + a.off) a (db a)) →
      ∃ m', addAttrs m 8 obj dest out as = .ok m' ∧ m'.blocks = m.blocks ∧
        (∀ (i : Nat) (a : AttrSpec), as[i]? = some a →
          m'.word (obj + a.off) = dest + extSum (as.take i) ∧ m'.word (out + 8 * i) = obj + a.off ∧
          ∀ j, j < a.bytes → m'.byte (dest + extSum (as.take i) + j) = db a j) ∧
        ∀ x, (x < dest ∨ dest + extSum as ≤ x) → (x < out ∨ out + 8 * as.length ≤ x) →
          (∀ a ∈ as, x < obj + a.off ∨ obj + a.off + 8 ≤ x) → m'.byte x = m.byte x
  | [], m, dest, out, _, _, _, _, _, _, _, _, _ => ⟨m, rfl, rfl, by simp, fun _ _ _ _ => rfl⟩
  | a :: as, m, dest, out, val, ald, alo, h1, h2, h3, ho, hp, hs => by
    rw [extSum_cons] at h2
    rw [List.length_cons] at h3
    rw [List.pairwise_cons] at hp
    have oa := ho a (by simp)
    have em := a.ext_mod
    have vs : ∀ (mm : Mem) (x n : Nat), mm.blocks = m.blocks → lo ≤ x → x + n ≤ hi → mm.valid x n :=
      fun mm x n hb hx hn => (Mem.valid_of_blocks hb).2 (Mem.valid_sub val (by omega) (by omega))
    obtain ⟨m1, c1, c2, c3, c4⟩ := copyAttr_ok (hs a (by simp)) (by omega : lo ≤ dest) (by omega)
      (vs m dest a.ext rfl (by omega) (by omega))
    let m2 := (m1.put (obj + a.off) dest).put out (obj + a.off)
    have b2 : m2.blocks = m.blocks := by simp [m2, c2]
    obtain ⟨m', i1, i2, i3, i4⟩ := addAttrs_ok db al hlo hhi as m2 (dest + a.ext) (out + 8)
      ((Mem.valid_of_blocks b2).2 val) (by omega) (by omega) (by omega) (by omega) (by omega)
      (fun b hb => ho b (by simp [hb])) hp.2
      (by
        intro b hb
        have ob := ho b (by simp [hb])
        have hne := hp.1 b hb
        refine (hs b (by simp [hb])).frame b2 ?_ ?_
        · refine Mem.word_congr fun x hx1 hx2 => ?_
          simp only [m2]
          rw [Mem.byte_put_of_lt _ (by omega), Mem.byte_put_of_lt _ (by omega), c4 _ (by omega)]
        · intro x hx
          simp only [m2]
          rw [Mem.byte_put_of_lt _ (by omega), Mem.byte_put_of_lt _ (by omega), c4 _ (by omega)])
    refine ⟨m', ?_, by rw [i2, b2], ?_, ?_⟩
    · simp only [addAttrs]
      rw [Mem.load64_ok (by omega) (vs m _ _ rfl (by omega) (by omega)), Res.ok_bind, c1, Res.ok_bind,
        Mem.store64_ok (by omega) (vs m1 _ _ c2 (by omega) (by omega)), Res.ok_bind,
        Mem.store64_ok (by omega) (by simp only [Mem.put_valid]; exact vs m1 _ _ c2 (by omega) (by omega)),
        Res.ok_bind]
      exact i1
    · intro i b hi
      cases i with
      | zero =>
        simp only [List.getElem?_cons_zero, Option.some.injEq] at hi
        subst hi
        simp only [List.take_zero, extSum_nil, Nat.add_zero, Nat.mul_zero]
        have f : ∀ b ∈ as, b.off % 8 = 0 ∧ b.off + 8 ≤ hsz ∧ a.off ≠ b.off := fun b hb =>
          ⟨(ho b (by simp [hb])).1, (ho b (by simp [hb])).2, hp.1 b hb⟩
        refine ⟨?_, ?_, fun j hj => ?_⟩
        · rw [Mem.word_congr (m := m2) (fun x hx1 hx2 => i4 x (by omega) (by omega) (fun b hb => by
            have := f b hb; omega))]
          simp only [m2]
          rw [Mem.word_put_other _ (by omega), Mem.word_put_same _ _ _ (by omega)]
        · rw [Mem.word_congr (m := m2) (fun x hx1 hx2 => i4 x (by omega) (by omega) (fun b hb => by
            have := f b hb; omega))]
          simp only [m2]
          rw [Mem.word_put_same _ _ _ (by omega)]
        · have := a.ext_ge
          rw [i4 _ (by omega) (by omega) (fun b hb => by have := f b hb; omega)]
          simp only [m2]
          rw [Mem.byte_put_of_lt _ (by omega), Mem.byte_put_of_lt _ (by omega), c3 j hj]
      | succ i =>
        have := i3 i b (by simpa using hi)
        simp only [List.take_succ_cons, extSum_cons]
        rw [show dest + (a.ext + extSum (as.take i)) = dest + a.ext + extSum (as.take i) by omega,
          show out + 8 * (i + 1) = out + 8 + 8 * i by omega]
        exact this
    · intro x hx1 hx2 hx3
      rw [extSum_cons] at hx1
      rw [List.length_cons] at hx2
      have := hx3 a (by simp)
      rw [i4 x (by omega) (by omega) (fun b hb => hx3 b (by simp [hb]))]
      simp only [m2]
      rw [Mem.byte_put_of_lt _ (by omega), Mem.byte_put_of_lt _ (by omega), c4 _ (by omega)]

/-! ## The content with one more object -/

/-- The data pointers of an object stored at `o`, whose attributes are stored from `d` on. -/
def newPtrs (o d : Nat) : List AttrSpec → List (Nat × Nat)
  | [] => []
  | a :: as => (o + a.off, d) :: newPtrs o (d + a.ext) as

theorem newPtrs_length (o d : Nat) : ∀ as, (newPtrs o d as).length = as.length
  | [] => rfl
  | a :: as => by simp [newPtrs, newPtrs_length o (d + a.ext) as]

theorem newPtrs_getElem? (o : Nat) : ∀ (as : List AttrSpec) (d i : Nat),
    (newPtrs o d as)[i]? = as[i]?.map fun a => (o + a.off, d + extSum (as.take i))
  | [], _, _ => by simp [newPtrs]
  | a :: as, d, 0 => by simp [newPtrs, extSum_nil]
  | a :: as, d, i + 1 => by
    simp only [newPtrs, List.getElem?_cons_succ, newPtrs_getElem? o as, List.take_succ_cons, extSum_cons,
      Nat.add_assoc]

theorem newPtrs_mem {o d : Nat} {as : List AttrSpec} {p : Nat × Nat} (h : p ∈ newPtrs o d as) :
    ∃ i a, as[i]? = some a ∧ p = (o + a.off, d + extSum (as.take i)) := by
  obtain ⟨i, hi⟩ := List.mem_iff_getElem?.1 h
  rw [newPtrs_getElem?] at hi
  cases ha : as[i]? with
  | none => rw [ha] at hi; simp at hi
  | some a =>
    rw [ha] at hi
    simp only [Option.map_some, Option.some.injEq] at hi
    exact ⟨i, a, ha, hi.symm⟩

theorem newPtrs_ne (o : Nat) : ∀ (as : List AttrSpec) (d : Nat), as.Pairwise (fun a b => a.off ≠ b.off) →
    (newPtrs o d as).Pairwise fun a b => a.1 ≠ b.1
  | [], _, _ => List.Pairwise.nil
  | a :: as, d, h => by
    rw [List.pairwise_cons] at h
    simp only [newPtrs]
    rw [List.pairwise_cons]
    refine ⟨fun p hp => ?_, newPtrs_ne o as _ h.2⟩
    obtain ⟨i, b, hb, rfl⟩ := newPtrs_mem hp
    have := h.1 b (List.mem_of_getElem? hb)
    dsimp only; omega

/-- What the caller guarantees about an object: a handle, pointers inside of the handle,
each given once. -/
structure SpecOk (size : Nat) (as : List AttrSpec) : Prop where
  pos : 0 < size
  off : ∀ a ∈ as, a.off % 8 = 0 ∧ a.off + 8 ≤ size
  ne : as.Pairwise fun a b => a.off ≠ b.off

/-- Number of slots of an object. -/
def objSlots (size : Nat) (as : List AttrSpec) : Nat :=
  predictSlots size (as.map fun a => (a.size, a.count)) 8

theorem objSlots_eq {size : Nat} {as : List AttrSpec} (h : SpecOk size as) :
    8 * objSlots size as = roundUp size 8 + extSum as := predictSlots_8 h.pos as

/-- The content with one more object. -/
def Content.add (k : Content) (typeId size : Nat) (as : List AttrSpec) (data : Nat → UInt8) : Content where
  nS := k.nS + objSlots size as
  recs := k.recs ++ [(8 * k.nS, typeId, 8 * objSlots size as)]
  ptrs := k.ptrs ++ newPtrs (8 * k.nS) (8 * k.nS + roundUp size 8) as
  gs := k.gs
  data := fun x => if x < 8 * k.nS then k.data x else data x

theorem Content.add_ok {k : Content} (h : k.Ok) {typeId size : Nat} {as : List AttrSpec}
    (hs : SpecOk size as) (data : Nat → UInt8) (ht : typeId < W) (hw : 8 * objSlots size as < W) :
    (k.add typeId size as data).Ok := by
  have e := objSlots_eq hs
  have hru : roundUp (8 * objSlots size as) 8 = 8 * objSlots size as := by rw [roundUp_8]; omega
  have hm := roundUp_mod size
  have hge := roundUp_ge size
  refine ⟨?_, ?_, ?_, ?_, ?_⟩
  · intro r hr
    simp only [Content.add, List.mem_append, List.mem_singleton] at hr ⊢
    rcases hr with hr | rfl
    · have := h.rec_ok r hr; exact ⟨this.1, by omega, this.2.2⟩
    · dsimp only; rw [hru]; exact ⟨by omega, by omega, ht, hw⟩
  · simp only [Content.add]
    rw [List.pairwise_append]
    refine ⟨h.rec_mono, List.pairwise_singleton _ _, fun a ha b hb => ?_⟩
    rw [List.mem_singleton] at hb
    subst hb
    exact (h.rec_ok a ha).2.1
  · intro p hp
    simp only [Content.add, List.mem_append] at hp ⊢
    rcases hp with hp | hp
    · have := h.ptr_ok p hp; omega
    · obtain ⟨i, a, ha, rfl⟩ := newPtrs_mem hp
      have ho := hs.off a (List.mem_of_getElem? ha)
      have hl := extSum_take_le as ha
      have hm2 := extSum_mod (as.take i)
      dsimp only; omega
  · simp only [Content.add]
    rw [List.pairwise_append]
    refine ⟨h.ptr_ne, newPtrs_ne _ _ _ hs.ne, fun p hp q hq => ?_⟩
    obtain ⟨i, a, ha, rfl⟩ := newPtrs_mem hq
    have := h.ptr_ok p hp
    dsimp only; omega
  · intro q hq
    have := h.gar_ok q hq
    simp only [Content.add]; omega

/-! ## Storing -/

theorem putRecord_ok {m : Mem} {d addr t s : Nat} (h : m.valid d 24) :
    putRecord m d addr t s = .ok (((m.put d addr).put (d + 8) t).put (d + 16) s) := if_pos h

/-- The source of an object: the handle at `src`, the bytes of the attributes `db`. -/
structure SourceOk (m : Mem) (B cap src size : Nat) (as : List AttrSpec) (db : AttrSpec → Nat → UInt8) :
    Prop where
  val : m.valid src size
  out : src + size ≤ B ∨ B + cap ≤ src
  attrs : ∀ a ∈ as, SrcOk m B (B + cap) (src + a.off) a (db a)

theorem SourceOk.frame {m m' : Mem} {B cap src size : Nat} {as : List AttrSpec} {db : AttrSpec → Nat → UInt8}
    (h : SourceOk m B cap src size as db) (hs : SpecOk size as) (hb : m'.blocks = m.blocks)
    (hf : ∀ x, x < B ∨ B + cap ≤ x → m'.byte x = m.byte x) : SourceOk m' B cap src size as db := by
  refine ⟨(Mem.valid_of_blocks hb).2 h.val, h.out, fun a ha => (h.attrs a ha).frame hb ?_ hf⟩
  have := hs.off a ha
  have := h.out
  exact Mem.word_congr fun x h1 h2 => hf x (by omega)

theorem storeObject_ok {m : Mem} {B cap src size typeId : Nat} {c : Caps} {k : Content} {as : List AttrSpec}
    {db : AttrSpec → Nat → UInt8} (h : Layout m B B cap c k) (hs : SpecOk size as)
    (hsrc : SourceOk m B cap src size as db) (ht : typeId < W)
    (rS : k.nS + objSlots size as ≤ c.slots) (rO : k.recs.length + 1 ≤ c.objs)
    (rD : k.ptrs.length + as.length ≤ c.dataptrs) :
    ∃ m' data, storeObject m B 8 src size typeId (objSlots size as) (k.recs.length + 1)
        (k.nS + objSlots size as) (k.ptrs.length + as.length) as =
          .ok (m', B + (off c 4 + 16 + 24 * k.recs.length)) ∧ m'.blocks = m.blocks ∧
      Layout m' B B cap c (k.add typeId size as data) ∧
      (∀ x, x < B ∨ B + c.len ≤ x → m'.byte x = m.byte x) ∧
      (∀ j, j < size → (∀ a ∈ as, j < a.off ∨ a.off + 8 ≤ j) → data (8 * k.nS + j) = m.byte (src + j)) ∧
      ∀ (i : Nat) (a : AttrSpec), as[i]? = some a → ∀ j, j < a.bytes →
        data (8 * k.nS + roundUp size 8 + extSum (as.take i) + j) = db a j := by
  have hL : c.len = 128 + 8 * c.slots + 24 * c.objs + 8 * c.dataptrs + 16 * c.garbage := rfl
  have fit := h.head.fit
  have limB := h.head.limB
  have nzB := h.head.nzB
  have al := h.head.alB
  have e := objSlots_eq hs
  have rge := roundUp_ge size
  have rmd := roundUp_mod size
  have leG : k.gs.length ≤ c.garbage := h.head.le.garbage
  have hout := hsrc.out
  have kS : k.counts.slots = k.nS := rfl
  have kO : k.counts.objs = k.recs.length := rfl
  have kD : k.counts.dataptrs = k.ptrs.length := rfl
  have kG : k.counts.garbage = k.gs.length := rfl
  -- the handle
  let obj := B + (80 + 8 * k.nS)
  let m1 := m.move obj src size
  have f1 : ∀ x, x < obj ∨ obj + size ≤ x → m1.byte x = m.byte x := fun x hx => Mem.byte_move_out _ hx
  have b1 : m1.blocks = m.blocks := by simp [m1]
  have H1 : Head m1 B B cap c k.counts := by
    refine h.head.frame ((Mem.valid_of_blocks b1).2 h.head.val) ?_ ?_
    · intro x hx; exact f1 _ (by simp only [obj]; omega)
    · refine forall_id ?_ ?_ ?_ ?_ <;> intro x hx <;> exact f1 _ (by simp only [obj, off]; omega)
  -- the record
  let d := B + (off c 4 + 16 + 24 * k.recs.length)
  let m2 := ((m1.put d obj).put (d + 8) typeId).put (d + 16) (objSlots size as * 8)
  have b2 : m2.blocks = m.blocks := by simp [m2, b1]
  have f2 : ∀ x, x < d ∨ d + 24 ≤ x → m2.byte x = m1.byte x := fun x hx => by
    simp only [m2]; frame_put
  have H2 : Head m2 B B cap c k.counts := by
    refine H1.frame ((Mem.valid_of_blocks b2).2 h.head.val) ?_ ?_
    · intro x hx; exact f2 _ (by simp only [d, off]; omega)
    · refine forall_id ?_ ?_ ?_ ?_ <;> intro x hx <;> exact f2 _ (by simp only [d, off]; omega)
  -- the attributes
  obtain ⟨m3, i1, i2, i3, i4⟩ := addAttrs_ok (lo := B) (hi := B + cap) (obj := obj) (hsz := roundUp size 8) db
    (by simp only [obj]; omega) (by omega) (by omega) as m2 (obj + roundUp size 8)
    (B + (off c 5 + (16 + 8 * k.ptrs.length)))
    ((Mem.valid_of_blocks b2).2 (by rw [Nat.add_sub_cancel_left]; exact h.head.val))
    (by simp only [obj]; omega) (by simp only [off]; omega) (by omega)
    (by simp only [obj, off]; omega) (by simp only [off]; omega)
    (fun a ha => by have := hs.off a ha; omega) hs.ne
    (fun a ha => by
      have ho := hs.off a ha
      have hsa := hsrc.attrs a ha
      have hw : m2.word (obj + a.off) = m.word (src + a.off) :=
        Mem.word_eq_of_bytes fun i hi => by
          rw [f2 _ (by simp only [obj, d, off]; omega)]
          simp only [m1]
          rw [Mem.byte_move_in _ (by omega)]
          congr 1; omega
      have hf : ∀ x, x < B ∨ B + cap ≤ x → m2.byte x = m.byte x := fun x hx => by
        rw [f2 _ (by simp only [d, off]; omega), f1 _ (by simp only [obj]; omega)]
      rcases hsa with ⟨h1, h2⟩ | ⟨h1, h2, h3, h4⟩
      · exact Or.inl ⟨by rw [hw, h1], h2⟩
      · refine Or.inr ⟨by rw [hw]; exact h1, by rw [hw]; exact (Mem.valid_of_blocks b2).2 h2,
          by rw [hw]; exact h3, fun j hj => ?_⟩
        rw [hw, hf _ (by omega), h4 j hj])
  have b3 : m3.blocks = m.blocks := i2.trans b2
  have oa : ∀ a ∈ as, a.off + 8 ≤ roundUp size 8 := fun a ha => by have := hs.off a ha; omega
  have f3 : ∀ x, (x < obj ∨ obj + 8 * objSlots size as ≤ x) → (x < B + (off c 5 + (16 + 8 * k.ptrs.length)) ∨
      B + (off c 5 + (16 + 8 * k.ptrs.length)) + 8 * as.length ≤ x) → m3.byte x = m2.byte x := fun x h1 h2 =>
    i4 x (by omega) (by omega) (fun a ha => by have := oa a ha; omega)
  have H3 : Head m3 B B cap c k.counts := by
    refine H2.frame ((Mem.valid_of_blocks b3).2 h.head.val) ?_ ?_
    · intro x hx; exact f3 _ (by simp only [obj]; omega) (by simp only [off]; omega)
    · refine forall_id ?_ ?_ ?_ ?_ <;> intro x hx <;>
        exact f3 _ (by simp only [obj, off]; omega) (by simp only [off]; omega)
  -- the number of data pointers
  have key : ∃ m4, storeAttrs m2 B 8 obj size (k.ptrs.length + as.length) as = .ok m4 ∧ m4.blocks = m.blocks ∧
      m4.word (B + (off c 5 + 8)) = k.ptrs.length + as.length ∧
      ∀ x, x < B + (off c 5 + 8) ∨ B + (off c 5 + 8) + 8 ≤ x → m4.byte x = m3.byte x := by
    unfold storeAttrs
    by_cases hn : as = []
    · rw [if_neg (by simp [hn])]
      have e3 : m3 = m2 := by
        rw [hn] at i1
        simpa [addAttrs] using i1.symm
      refine ⟨m2, rfl, b2, ?_, fun x _ => by rw [e3]⟩
      have := H2.num 5 (by omega) (by omega)
      rw [Nat.add_assoc] at this
      rw [this, hn]; rfl
    · rw [if_pos hn, H2.sectionSize (by omega) (by omega), Res.ok_bind, H2.sectionPtr (by omega) (by omega),
        Res.ok_bind]
      simp only [ent, cnt, kD]
      rw [Nat.add_assoc B (off c 5), i1, Res.ok_bind, H3.setNumEntities (by omega) (by omega)]
      exact ⟨_, rfl, by simp [b3], Mem.word_put_same _ _ _ (by omega), fun x hx => Mem.byte_put_of_lt _ hx⟩
  obtain ⟨m4, r4, b4, w4, f4⟩ := key
  have ad4 : ∀ id, 3 ≤ id → id ≤ 6 → m4.word (B + 8 * id) = B + off c id := fun id h1 h2 => by
    rw [← H3.addr id h1 h2]
    exact Mem.word_congr fun x h3 h4 => f4 x (by simp only [off]; omega)
  let m5 := m4.put (B + off c 3 + 8) (k.nS + objSlots size as)
  let m6 := m5.put (B + off c 4 + 8) (k.recs.length + 1)
  have b6 : m6.blocks = m.blocks := by simp [m6, m5, b4]
  have r5 : setNumEntities m4 B 3 (k.nS + objSlots size as) 8 = .ok m5 :=
    setNumEntities_eq nzB al ((Mem.valid_of_blocks b4).2 h.head.val) (by omega) (by omega) (by omega)
      (ad4 3 (by omega) (by omega)) (off_mod c 3 (by omega) (by omega)) (by simp only [off]; omega)
  have r6 : setNumEntities m5 B 4 (k.recs.length + 1) 8 = .ok m6 :=
    setNumEntities_eq nzB al ((Mem.valid_of_blocks (by simp [m5, b4])).2 h.head.val) (by omega) (by omega)
      (by omega) (by
        simp only [m5]; rw [Mem.word_put_other _ (by simp only [off]; omega)]
        exact ad4 4 (by omega) (by omega)) (off_mod c 4 (by omega) (by omega)) (by simp only [off]; omega)
  -- what has changed
  have f6 : ∀ x, (x < B + off c 3 + 8 ∨ B + off c 3 + 16 ≤ x) → (x < B + off c 4 + 8 ∨ B + off c 4 + 16 ≤ x) →
      (x < B + off c 5 + 8 ∨ B + off c 5 + 16 ≤ x) → m6.byte x = m3.byte x := fun x h1 h2 h3 => by
    simp only [m6, m5]
    rw [Mem.byte_put_of_lt _ (by omega), Mem.byte_put_of_lt _ (by omega), f4 _ (by omega)]
  have F : ∀ x, (x < B + off c 3 + 8 ∨ B + off c 3 + 16 ≤ x) → (x < B + off c 4 + 8 ∨ B + off c 4 + 16 ≤ x) →
      (x < B + off c 5 + 8 ∨ B + off c 5 + 16 ≤ x) → (x < obj ∨ obj + 8 * objSlots size as ≤ x) →
      (x < d ∨ d + 24 ≤ x) → (x < B + (off c 5 + (16 + 8 * k.ptrs.length)) ∨
      B + (off c 5 + (16 + 8 * k.ptrs.length)) + 8 * as.length ≤ x) → m6.byte x = m.byte x :=
    fun x h1 h2 h3 h4 h5 h6 => by rw [f6 x h1 h2 h3, f3 x h4 h6, f2 x h5, f1 x (by omega)]
  have H6 : Head m6 B B cap c (k.add typeId size as fun x => m6.byte (B + (80 + x))).counts := by
    refine h.head.withNums b6 ⟨?_, ?_, ?_, ?_⟩ ?_ ?_ ?_
    · simp only [Content.counts, Content.add, List.length_append, List.length_singleton]; exact rO
    · simp only [Content.counts, Content.add]; exact rS
    · simp only [Content.counts, Content.add, List.length_append, newPtrs_length]; exact rD
    · exact leG
    · intro x hx
      exact F _ (by simp only [off]; omega) (by simp only [off]; omega) (by simp only [off]; omega)
        (by simp only [obj]; omega) (by simp only [d, off]; omega) (by simp only [off]; omega)
    · refine forall_id ?_ ?_ ?_ ?_ <;> intro x hx <;>
        exact F _ (by simp only [off]; omega) (by simp only [off]; omega) (by simp only [off]; omega)
        (by simp only [obj, off]; omega) (by simp only [d, off]; omega) (by simp only [off]; omega)
    · refine forall_id ?_ ?_ ?_ ?_ <;> simp only [cnt, Content.counts, Content.add, List.length_append,
        List.length_singleton, newPtrs_length]
      · simp only [m6, m5]
        rw [Mem.word_put_other _ (by simp only [off]; omega), Mem.word_put_eq _ (by omega) (by omega)]
      · simp only [m6]
        rw [Mem.word_put_eq _ (by omega) (by omega)]
      · simp only [m6, m5]
        rw [Mem.word_put_other _ (by simp only [off]; omega), Mem.word_put_other _ (by simp only [off]; omega), w4]
      · have := h.head.num 6 (by omega) (by omega)
        rw [Nat.add_assoc] at this
        rw [← kG, show k.counts.garbage = cnt k.counts 6 from rfl, ← this]
        refine Mem.word_congr fun x h1 h2 => ?_
        simp only [off] at h1 h2
        exact F _ (by simp only [off]; omega) (by simp only [off]; omega) (by simp only [off]; omega)
          (by simp only [obj]; omega) (by simp only [d, off]; omega) (by simp only [off]; omega)
  have wF : ∀ o, 16 ≤ o → o + 8 ≤ 24 * c.objs + 16 → o + 8 ≤ 16 + 24 * k.recs.length →
      m6.word (B + (off c 4 + o)) = m.word (B + (off c 4 + o)) := fun o h1 h2 h3 =>
    Mem.word_congr fun x hx1 hx2 => by
      simp only [off] at hx1 hx2
      exact F _ (by simp only [off]; omega) (by simp only [off]; omega) (by simp only [off]; omega)
        (by simp only [obj]; omega) (by simp only [d, off]; omega) (by simp only [off]; omega)
  have w3 : ∀ o, 80 ≤ o → o + 8 ≤ c.len → (∀ id, 4 ≤ id → id ≤ 6 → o + 8 ≤ off c id ∨ off c id + 16 ≤ o) →
      m6.word (B + o) = m3.word (B + o) := fun o h1 h2 h3 => by
    have e4 := h3 4 (by omega) (by omega)
    have e5 := h3 5 (by omega) (by omega)
    exact Mem.word_congr fun x hx1 hx2 => f6 x (by simp only [off]; omega) (by omega) (by omega)
  have inner : ∀ id, 4 ≤ id → id ≤ 6 → 80 + 8 * c.slots ≤ off c id := by
    intro id h1 h2
    rcases (by omega : id = 4 ∨ id = 5 ∨ id = 6) with h | h | h <;> subst h <;> simp only [off] <;> omega
  refine ⟨m6, fun x => m6.byte (B + (80 + x)), ?_, b6, ⟨H6, Content.add_ok h.ok hs _ ht (by omega), ?_, ?_, ?_, ?_⟩,
    ?_, ?_, ?_⟩
  · -- the run
    simp only [storeObject]
    rw [h.head.sectionSize (by omega) (by omega), Res.ok_bind, h.head.sectionPtr (by omega) (by omega),
      Res.ok_bind]
    simp only [ent, cnt, kS]
    rw [show B + off c 3 + (16 + 8 * k.nS) = obj by simp only [obj, off]; omega,
      Mem.memcpy_ok (h.head.valid (by omega)) hsrc.val (by omega), Res.ok_bind]
    change (do
      let pO ← sectionPtr m1 B 4 8
      _) = _
    rw [H1.sectionPtr (by omega) (by omega), Res.ok_bind, if_neg (by omega), H1.sectionSize (by omega) (by omega),
      Res.ok_bind]
    simp only [ent, cnt, kO]
    rw [show B + off c 4 + (16 + 24 * k.recs.length) = d by simp only [d]; omega,
      putRecord_ok (H1.valid (by simp only [off]; omega)), Res.ok_bind]
    change (do
      let m ← storeAttrs m2 B 8 obj size (k.ptrs.length + as.length) as
      _) = _
    rw [r4, Res.ok_bind, r5, Res.ok_bind, r6, Res.ok_bind]
    rfl
  · -- the records
    intro i r hi
    simp only [Content.add] at hi
    rcases Nat.lt_trichotomy i k.recs.length with hlt | heq | hgt
    · rw [List.getElem?_append_left hlt] at hi
      have := h.recs i r hi
      rw [Nat.add_assoc (off c 4), Nat.add_assoc (off c 4), Nat.add_assoc (off c 4)] at this ⊢
      rw [wF _ (by omega) (by omega) (by omega), wF _ (by omega) (by omega) (by omega),
        wF _ (by omega) (by omega) (by omega)]
      exact this
    · subst heq
      rw [List.getElem?_append_right (by omega), Nat.sub_self] at hi
      simp only [List.getElem?_cons_zero, Option.some.injEq] at hi
      subst hi
      have hd : B + (off c 4 + 16 + 24 * k.recs.length) = d := rfl
      have wd : ∀ o, o + 8 ≤ 24 → m6.word (d + o) = m2.word (d + o) := fun o ho =>
        Mem.word_congr fun x h1 h2 => by
          rw [f6 x (by simp only [d, off] at h1 h2 ⊢; omega) (by simp only [d, off] at h1 h2 ⊢; omega)
            (by simp only [d, off] at h1 h2 ⊢; omega),
            f3 x (by simp only [d, off, obj] at h1 h2 ⊢; omega) (by simp only [d, off] at h1 h2 ⊢; omega)]
      have wd0 := wd 0 (by omega)
      rw [Nat.add_zero] at wd0
      rw [show B + (off c 4 + 16 + 24 * k.recs.length + 8) = d + 8 by simp only [d]; omega,
        show B + (off c 4 + 16 + 24 * k.recs.length + 16) = d + 16 by simp only [d]; omega, hd, wd0,
        wd 8 (by omega), wd 16 (by omega)]
      have hob : obj = B + 80 + 8 * k.nS := by simp only [obj]; omega
      simp only [m2]
      refine ⟨?_, ?_, ?_⟩
      · rw [Mem.word_put_other _ (by omega), Mem.word_put_other _ (by omega),
          Mem.word_put_same _ _ _ (by omega), hob]
      · rw [Mem.word_put_other _ (by omega), Mem.word_put_same _ _ _ (by omega)]
      · rw [Mem.word_put_same _ _ _ (by omega), Nat.mul_comm]
    · rw [List.getElem?_append_right (by omega)] at hi
      have : i - k.recs.length ≠ 0 := by omega
      rw [List.getElem?_cons, if_neg this] at hi
      simp at hi
  · -- the data pointers
    intro i p hi
    simp only [Content.add] at hi
    rcases Nat.lt_or_ge i k.ptrs.length with hlt | hge
    · rw [List.getElem?_append_left hlt] at hi
      have hp := h.ok.ptr_ok p (List.mem_of_getElem? hi)
      have leS : k.nS ≤ c.slots := h.head.le.slots
      rw [← (h.ptrs i p hi).1, ← (h.ptrs i p hi).2]
      constructor
      · refine Mem.word_congr fun x hx1 hx2 => ?_
        simp only [off] at hx1 hx2
        exact F _ (by simp only [off]; omega) (by simp only [off]; omega) (by simp only [off]; omega)
          (by simp only [obj]; omega) (by simp only [d, off]; omega) (by simp only [off]; omega)
      · refine Mem.word_congr fun x hx1 hx2 => ?_
        exact F _ (by simp only [off]; omega) (by simp only [off]; omega) (by simp only [off]; omega)
          (by simp only [obj]; omega) (by simp only [d, off]; omega) (by simp only [off]; omega)
    · rw [List.getElem?_append_right hge, newPtrs_getElem?] at hi
      cases ha : as[i - k.ptrs.length]? with
      | none => rw [ha] at hi; simp at hi
      | some a =>
        rw [ha] at hi
        simp only [Option.map_some, Option.some.injEq] at hi
        subst hi
        have hal := (List.getElem?_eq_some_iff.mp ha).1
        have ho := hs.off a (List.mem_of_getElem? ha)
        obtain ⟨j1, j2, -⟩ := i3 _ a ha
        have hob : obj = B + 80 + 8 * k.nS := by simp only [obj]; omega
        dsimp only
        constructor
        · rw [w3 _ (by simp only [off]; omega) (by simp only [off]; omega) (by
            intro id h1 h2
            rcases (by omega : id = 4 ∨ id = 5 ∨ id = 6) with h | h | h <;> subst h <;> simp only [off] <;> omega),
            show B + (off c 5 + 16 + 8 * i) = B + (off c 5 + (16 + 8 * k.ptrs.length)) + 8 * (i - k.ptrs.length) by
              omega, j2]
          omega
        · rw [w3 _ (by omega) (by omega) (fun id h1 h2 => by have := inner id h1 h2; omega),
            show B + (80 + (8 * k.nS + a.off)) = obj + a.off by omega, j1]
          omega
  · -- the garbage
    refine Gars.frame h.gars fun x hx => ?_
    exact F _ (by simp only [off]; omega) (by simp only [off]; omega) (by simp only [off]; omega)
          (by simp only [obj, off]; omega) (by simp only [d, off]; omega) (by simp only [off]; omega)
  · -- the data
    intro x hx hn
    simp only [Content.add] at hx hn ⊢
    by_cases hlt : x < 8 * k.nS
    · rw [if_pos hlt, ← h.data x hlt (fun ⟨p, hp, hh⟩ => hn ⟨p, by simp [hp], hh⟩)]
      exact F _ (by simp only [off]; omega) (by simp only [off]; omega) (by simp only [off]; omega)
          (by simp only [obj]; omega) (by simp only [d, off]; omega) (by simp only [off]; omega)
    · rw [if_neg hlt]
  · -- nothing else has changed
    intro x hx
    exact F _ (by simp only [off]; omega) (by simp only [off]; omega) (by simp only [off]; omega)
          (by simp only [obj]; omega) (by simp only [d, off]; omega) (by simp only [off]; omega)
  · -- the handle
    intro j hj hn
    have ej : B + (80 + (8 * k.nS + j)) = obj + j := by simp only [obj]; omega
    dsimp only
    rw [ej, f6 _ (by simp only [obj, off]; omega) (by simp only [obj, off]; omega) (by simp only [obj, off]; omega),
      i4 _ (by omega) (by simp only [obj, off]; omega) (fun a ha => by have := hn a ha; omega),
      f2 _ (by simp only [obj, d, off]; omega)]
    simp only [m1]
    rw [Mem.byte_move_in _ (by omega), Nat.add_sub_cancel_left]
  · -- the attributes
    intro i a ha j hj
    obtain ⟨-, -, j3⟩ := i3 i a ha
    have hl := extSum_take_le as ha
    have hge := a.ext_ge
    rw [← j3 j hj]
    dsimp only
    rw [show B + (80 + (8 * k.nS + roundUp size 8 + extSum (as.take i) + j)) =
      obj + roundUp size 8 + extSum (as.take i) + j by simp only [obj]; omega]
    exact f6 _ (by simp only [obj, off]; omega) (by simp only [obj, off]; omega) (by simp only [obj, off]; omega)

end SixTrack.Buf
