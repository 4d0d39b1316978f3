import Verif.TrackOpt
import Verif.TrackDebugLemmas

/-! # Helper lemmas about the optimised tracking kernels -/

namespace SixTrack.TrackOpt
open Track EBE JobTrack

variable {V E R : Type}

/-- The flat arrays have room for all attributes. -/
structure Room (l : Flat V) : Prop where
  reals : 17 * l.num ≤ l.nReals
  inds : 4 * l.num ≤ l.nInds

theorem RealField.mem (f : RealField) : f ∈ realFields := by cases f <;> decide

theorem IndexField.mem (f : IndexField) : f ∈ indexFields := by cases f <;> decide

theorem RealField.slot_lt (f : RealField) : f.slot < 17 := by cases f <;> decide

theorem IndexField.slot_lt (f : IndexField) : f.slot < 4 := by cases f <;> decide

theorem RealField.slot_inj {f g : RealField} (h : f.slot = g.slot) : f = g := by
  cases f <;> cases g <;> first | rfl | (exact absurd h (by decide))

theorem IndexField.slot_inj {f g : IndexField} (h : f.slot = g.slot) : f = g := by
  cases f <;> cases g <;> first | rfl | (exact absurd h (by decide))

theorem pos_lt {k n m i N : Nat} (hk : k < m) (hi : i < n) (h : m * n ≤ N) : k * n + i < N := by
  have : (k + 1) * n ≤ m * n := Nat.mul_le_mul_right n hk
  rw [Nat.succ_mul] at this
  omega

theorem pos_inj {k k' n i j : Nat} (hi : i < n) (hj : j < n) (h : k * n + i = k' * n + j) :
    k = k' ∧ i = j := by
  have h1 : (k * n + i) / n = k := by
    rw [Nat.mul_comm, Nat.mul_add_div (by omega), Nat.div_eq_of_lt hi, Nat.add_zero]
  have h2 : (k' * n + j) / n = k' := by
    rw [Nat.mul_comm, Nat.mul_add_div (by omega), Nat.div_eq_of_lt hj, Nat.add_zero]
  have h3 : k = k' := by rw [← h1, ← h2, h]
  subst h3
  exact ⟨rfl, by omega⟩

theorem Room.realPos_lt {l : Flat V} (h : Room l) (f : RealField) {i : Nat} (hi : i < l.num) :
    l.realPos f i < l.nReals := pos_lt f.slot_lt hi h.reals

theorem Room.indPos_lt {l : Flat V} (h : Room l) (f : IndexField) {i : Nat} (hi : i < l.num) :
    l.indPos f i < l.nInds := pos_lt f.slot_lt hi h.inds

theorem realPos_inj {l : Flat V} {f g : RealField} {i j : Nat} (hi : i < l.num) (hj : j < l.num)
    (h : l.realPos f i = l.realPos g j) : f = g ∧ i = j := by
  obtain ⟨h1, h2⟩ := pos_inj hi hj h
  exact ⟨RealField.slot_inj h1, h2⟩

theorem indPos_inj {l : Flat V} {f g : IndexField} {i j : Nat} (hi : i < l.num) (hj : j < l.num)
    (h : l.indPos f i = l.indPos g j) : f = g ∧ i = j := by
  obtain ⟨h1, h2⟩ := pos_inj hi hj h
  exact ⟨IndexField.slot_inj h1, h2⟩

/-- `l'` is `l` with the attributes `fs` of particle `i` replaced by `v`. -/
structure RealsSet (fs : List RealField) (i : Nat) (v : RealField → V) (l l' : Flat V) : Prop where
  num : l'.num = l.num
  nReals : l'.nReals = l.nReals
  nInds : l'.nInds = l.nInds
  inds : l'.inds = l.inds
  val : ∀ f j, j < l.num → l'.reals (l.realPos f j) = if f ∈ fs ∧ j = i then v f else l.reals (l.realPos f j)

structure IndsSet (fs : List IndexField) (i : Nat) (v : IndexField → Int) (l l' : Flat V) : Prop where
  num : l'.num = l.num
  nReals : l'.nReals = l.nReals
  nInds : l'.nInds = l.nInds
  reals : l'.reals = l.reals
  val : ∀ f j, j < l.num → l'.inds (l.indPos f j) = if f ∈ fs ∧ j = i then v f else l.inds (l.indPos f j)

theorem setReals {i : Nat} (v : RealField → V) : ∀ (fs : List RealField) (l : Flat V), Room l → i < l.num →
    ∃ l', fs.foldlM (fun l f => l.setReal f i (v f)) l = .ok l' ∧ RealsSet fs i v l l'
  | [], l, _, _ => ⟨l, rfl, rfl, rfl, rfl, rfl, by simp⟩
  | f :: fs, l, h, hi => by
    have h1 : l.setReal f i (v f) = .ok { l with reals := Particles.setAt l.reals (l.realPos f i) (v f) } :=
      if_pos (h.realPos_lt f hi)
    obtain ⟨l', h2, h3⟩ := setReals v fs { l with reals := Particles.setAt l.reals (l.realPos f i) (v f) }
      ⟨h.1, h.2⟩ hi
    refine ⟨l', ?_, h3.num, h3.nReals, h3.nInds, h3.inds, fun g j hj => ?_⟩
    · rw [List.foldlM_cons, h1]; exact h2
    · have h4 := h3.val g j hj
      change l'.reals (l.realPos g j) = if _ then _ else Particles.setAt l.reals _ _ (l.realPos g j) at h4
      rw [h4]
      by_cases hg : g ∈ fs ∧ j = i
      · rw [if_pos hg, if_pos ⟨List.mem_cons_of_mem _ hg.1, hg.2⟩]
      · rw [if_neg hg]
        unfold Particles.setAt
        by_cases he : l.realPos g j = l.realPos f i
        · obtain ⟨rfl, rfl⟩ := realPos_inj hj hi he
          rw [if_pos rfl, if_pos ⟨List.mem_cons_self, rfl⟩]
        · rw [if_neg he, if_neg]
          rintro ⟨h5, rfl⟩
          rcases List.mem_cons.1 h5 with rfl | h5
          · exact he rfl
          · exact hg ⟨h5, rfl⟩

theorem setInds {i : Nat} (v : IndexField → Int) : ∀ (fs : List IndexField) (l : Flat V), Room l → i < l.num →
    ∃ l', fs.foldlM (fun l f => l.setInd f i (v f)) l = .ok l' ∧ IndsSet fs i v l l'
  | [], l, _, _ => ⟨l, rfl, rfl, rfl, rfl, rfl, by simp⟩
  | f :: fs, l, h, hi => by
    have h1 : l.setInd f i (v f) = .ok { l with inds := Particles.setAt l.inds (l.indPos f i) (v f) } :=
      if_pos (h.indPos_lt f hi)
    obtain ⟨l', h2, h3⟩ := setInds v fs { l with inds := Particles.setAt l.inds (l.indPos f i) (v f) }
      ⟨h.1, h.2⟩ hi
    refine ⟨l', ?_, h3.num, h3.nReals, h3.nInds, h3.reals, fun g j hj => ?_⟩
    · rw [List.foldlM_cons, h1]; exact h2
    · have h4 := h3.val g j hj
      change l'.inds (l.indPos g j) = if _ then _ else Particles.setAt l.inds _ _ (l.indPos g j) at h4
      rw [h4]
      by_cases hg : g ∈ fs ∧ j = i
      · rw [if_pos hg, if_pos ⟨List.mem_cons_of_mem _ hg.1, hg.2⟩]
      · rw [if_neg hg]
        unfold Particles.setAt
        by_cases he : l.indPos g j = l.indPos f i
        · obtain ⟨rfl, rfl⟩ := indPos_inj hj hi he
          rw [if_pos rfl, if_pos ⟨List.mem_cons_self, rfl⟩]
        · rw [if_neg he, if_neg]
          rintro ⟨h5, rfl⟩
          rcases List.mem_cons.1 h5 with rfl | h5
          · exact he rfl
          · exact hg ⟨h5, rfl⟩

/-- `l'` is `l` with particle `i` replaced. -/
structure PartSet (i : Nat) (v : RealField → V) (w : IndexField → Int) (l l' : Flat V) : Prop where
  num : l'.num = l.num
  nReals : l'.nReals = l.nReals
  nInds : l'.nInds = l.nInds
  real : ∀ f j, j < l.num → l'.reals (l.realPos f j) = if j = i then v f else l.reals (l.realPos f j)
  ind : ∀ f j, j < l.num → l'.inds (l.indPos f j) = if j = i then w f else l.inds (l.indPos f j)

theorem PartSet.room {i : Nat} {v : RealField → V} {w : IndexField → Int} {l l' : Flat V}
    (h : PartSet i v w l l') (hl : Room l) : Room l' :=
  ⟨by rw [h.num, h.nReals]; exact hl.1, by rw [h.num, h.nInds]; exact hl.2⟩

theorem setBoth {i : Nat} (v : RealField → V) (w : IndexField → Int) {l : Flat V} (h : Room l)
    (hi : i < l.num) : ∃ l', (do
      let l ← realFields.foldlM (fun (l : Flat V) f => l.setReal f i (v f)) l
      indexFields.foldlM (fun (l : Flat V) f => l.setInd f i (w f)) l) = Res.ok l' ∧ PartSet i v w l l' := by
  obtain ⟨l1, h1, h2⟩ := setReals v realFields l h hi
  obtain ⟨l2, h3, h4⟩ := setInds w indexFields l1
    ⟨by rw [h2.num, h2.nReals]; exact h.1, by rw [h2.num, h2.nInds]; exact h.2⟩ (by rw [h2.num]; exact hi)
  refine ⟨l2, by rw [h1]; exact h3, h4.num.trans h2.num, h4.nReals.trans h2.nReals,
    h4.nInds.trans h2.nInds, fun f j hj => ?_, fun f j hj => ?_⟩
  · rw [h4.reals, h2.val f j hj]
    simp only [RealField.mem, true_and]
  · have hpos : l.indPos f j = l1.indPos f j := by unfold Flat.indPos; rw [h2.num]
    rw [hpos, h4.val f j (by rw [h2.num]; exact hj), h2.inds]
    simp only [IndexField.mem, true_and]

theorem copyFrom_eq {dst : Flat V} {d : Nat} {src : Arrays V} {s : Nat} (h : Room dst) (hd : d < dst.num)
    (hs : s < src.num) : ∃ l', copyFrom dst d src s = .ok (0, l') ∧
      PartSet d (fun f => src.real f s) (fun f => src.ind f s) dst l' := by
  obtain ⟨l', h1, h2⟩ := setBoth (fun f => src.real f s) (fun f => src.ind f s) h hd
  refine ⟨l', ?_, h2⟩
  unfold copyFrom
  rw [if_pos ⟨hs, hd⟩]
  rw [Res.bind_eq_ok] at h1
  obtain ⟨l1, h3, h4⟩ := h1
  rw [h3]
  simp only [Res.ok_bind]
  rw [h4]; rfl

theorem setPart_eq {l : Flat V} {i : Nat} (h : Room l) (hi : i < l.num) (p : P V) :
    ∃ l', l.setPart i p = .ok l' ∧ PartSet i p.coord (indexOf p) l l' :=
  setBoth p.coord (indexOf p) h hi

theorem part_eq {l : Flat V} {i : Nat} (h : Room l) (hi : i < l.num) :
    l.part i = .ok ⟨fun f => l.reals (l.realPos f i), l.inds (l.indPos .particleId i),
      l.inds (l.indPos .atElementId i), l.inds (l.indPos .atTurn i), l.inds (l.indPos .state i)⟩ :=
  if_pos ⟨fun f _ => h.realPos_lt f hi, fun f _ => h.indPos_lt f hi⟩

/-- `a'` is `a` with particle `i` replaced. -/
structure ArrSet (i : Nat) (v : RealField → V) (w : IndexField → Int) (a a' : Arrays V) : Prop where
  num : a'.num = a.num
  real : ∀ f j, a'.real f j = if j = i then v f else a.real f j
  ind : ∀ f j, a'.ind f j = if j = i then w f else a.ind f j

theorem foldReals {src : Flat V} {s d : Nat} (h : Room src) (hs : s < src.num) :
    ∀ (fs : List RealField) (a : Arrays V), ∃ a', fs.foldlM (fun (a : Arrays V) f => do
      let v ← src.getReal f s
      pure (a.setReal f d v)) a = .ok a' ∧ a'.num = a.num ∧ a'.ind = a.ind ∧
      ∀ f j, a'.real f j = if f ∈ fs ∧ j = d then src.reals (src.realPos f s) else a.real f j
  | [], a => ⟨a, rfl, rfl, rfl, by simp⟩
  | f :: fs, a => by
    have h1 : src.getReal f s = .ok (src.reals (src.realPos f s)) := if_pos (h.realPos_lt f hs)
    obtain ⟨a', h2, h3, h4, h5⟩ := foldReals (d := d) h hs fs (a.setReal f d (src.reals (src.realPos f s)))
    refine ⟨a', ?_, h3, h4, fun g j => ?_⟩
    · rw [List.foldlM_cons, h1]; exact h2
    · rw [h5]
      by_cases hg : g ∈ fs ∧ j = d
      · rw [if_pos hg, if_pos ⟨List.mem_cons_of_mem _ hg.1, hg.2⟩]
      · rw [if_neg hg]
        simp only [Arrays.setReal]
        by_cases he : g = f
        · subst he
          rw [if_pos rfl]
          unfold Particles.setAt
          by_cases hj : j = d
          · rw [if_pos hj, if_pos ⟨List.mem_cons_self, hj⟩]
          · rw [if_neg hj, if_neg fun h' => hj h'.2]
        · rw [if_neg he, if_neg]
          rintro ⟨h6, h7⟩
          rcases List.mem_cons.1 h6 with rfl | h6
          · exact he rfl
          · exact hg ⟨h6, h7⟩

theorem foldInds {src : Flat V} {s d : Nat} (h : Room src) (hs : s < src.num) :
    ∀ (fs : List IndexField) (a : Arrays V), ∃ a', fs.foldlM (fun (a : Arrays V) f => do
      let v ← src.getInd f s
      pure (a.setInd f d v)) a = .ok a' ∧ a'.num = a.num ∧ a'.real = a.real ∧
      ∀ f j, a'.ind f j = if f ∈ fs ∧ j = d then src.inds (src.indPos f s) else a.ind f j
  | [], a => ⟨a, rfl, rfl, rfl, by simp⟩
  | f :: fs, a => by
    have h1 : src.getInd f s = .ok (src.inds (src.indPos f s)) := if_pos (h.indPos_lt f hs)
    obtain ⟨a', h2, h3, h4, h5⟩ := foldInds (d := d) h hs fs (a.setInd f d (src.inds (src.indPos f s)))
    refine ⟨a', ?_, h3, h4, fun g j => ?_⟩
    · rw [List.foldlM_cons, h1]; exact h2
    · rw [h5]
      by_cases hg : g ∈ fs ∧ j = d
      · rw [if_pos hg, if_pos ⟨List.mem_cons_of_mem _ hg.1, hg.2⟩]
      · rw [if_neg hg]
        simp only [Arrays.setInd]
        by_cases he : g = f
        · subst he
          rw [if_pos rfl]
          unfold Particles.setAt
          by_cases hj : j = d
          · rw [if_pos hj, if_pos ⟨List.mem_cons_self, hj⟩]
          · rw [if_neg hj, if_neg fun h' => hj h'.2]
        · rw [if_neg he, if_neg]
          rintro ⟨h6, h7⟩
          rcases List.mem_cons.1 h6 with rfl | h6
          · exact he rfl
          · exact hg ⟨h6, h7⟩

theorem copyTo_eq {dst : Arrays V} {d : Nat} {src : Flat V} {s : Nat} (h : Room src) (hs : s < src.num)
    (hd : d < dst.num) : ∃ a', copyTo dst d src s = .ok (0, a') ∧
      ArrSet d (fun f => src.reals (src.realPos f s)) (fun f => src.inds (src.indPos f s)) dst a' := by
  obtain ⟨a1, h1, h2, h3, h4⟩ := foldReals (d := d) h hs realFields dst
  obtain ⟨a2, h5, h6, h7, h8⟩ := foldInds (d := d) h hs indexFields a1
  refine ⟨a2, ?_, h6.trans h2, fun f j => ?_, fun f j => ?_⟩
  · unfold copyTo
    rw [if_pos ⟨hs, hd⟩, h1]
    simp only [Res.ok_bind]
    rw [h5]; rfl
  · rw [h7, h4]; simp only [RealField.mem, true_and]
  · rw [h8, h3]; simp only [IndexField.mem, true_and]

/-- The set of one particle. -/
def Single (l : Flat V) : Prop := l.num = 1 ∧ l.nReals = 17 ∧ l.nInds = 4

theorem Single.room {l : Flat V} (h : Single l) : Room l :=
  ⟨by rw [h.1, h.2.1]; decide, by rw [h.1, h.2.2]; decide⟩

theorem Single.lt {l : Flat V} (h : Single l) : 0 < l.num := by rw [h.1]; decide

theorem PartSet.single {i : Nat} {v : RealField → V} {w : IndexField → Int} {l l' : Flat V}
    (h : PartSet i v w l l') (hl : Single l) : Single l' :=
  ⟨h.num.trans hl.1, h.nReals.trans hl.2.1, h.nInds.trans hl.2.2⟩

theorem PartSet.part_at {i : Nat} {v : RealField → V} {w : IndexField → Int} {l l' : Flat V}
    (h : PartSet i v w l l') (hl : Room l) (hi : i < l.num) :
    l'.part i = .ok ⟨v, w .particleId, w .atElementId, w .atTurn, w .state⟩ := by
  rw [part_eq (h.room hl) (by rw [h.num]; exact hi)]
  have hr : ∀ f, l'.realPos f i = l.realPos f i := fun f => by unfold Flat.realPos; rw [h.num]
  have hn : ∀ f, l'.indPos f i = l.indPos f i := fun f => by unfold Flat.indPos; rw [h.num]
  simp only [hr, hn, h.real _ _ hi, h.ind _ _ hi, if_pos]

/-- One round of the loop. -/
theorem runOne_ok {f : One (RealField → V) R} {i : Nat} {r : Run V R} (hl : Single r.loc)
    (hi : i < r.arr.num) {x : Int × EWorld (RealField → V) R}
    (hf : f ⟨⟨r.arr.part i, r.out⟩, r.recs⟩ = .ok x) :
    ∃ r', runOne f i r = .ok r' ∧ Single r'.loc ∧ r'.status = r.status ||| BitVec.ofInt 32 x.1 ∧
      ArrSet i x.2.w.part.coord (indexOf x.2.w.part) r.arr r'.arr ∧ r'.out = x.2.w.out ∧
      r'.recs = x.2.recs := by
  obtain ⟨l1, h1, h2⟩ := copyFrom_eq hl.room hl.lt hi
  have hl1 := h2.single hl
  obtain ⟨l2, h3, h4⟩ := setPart_eq hl1.room hl1.lt x.2.w.part
  have hl2 := h4.single hl1
  obtain ⟨a', h5, h6⟩ := copyTo_eq hl2.room hl2.lt hi
  refine ⟨⟨r.status ||| BitVec.ofInt 32 0 ||| BitVec.ofInt 32 x.1 ||| BitVec.ofInt 32 0, a', l2, x.2.w.out,
    x.2.recs⟩, ?_, hl2, ?_, ⟨h6.num, fun g j => ?_, fun g j => ?_⟩, rfl, rfl⟩
  · unfold runOne
    rw [h1]
    simp only [Res.ok_bind]
    unfold trackAt
    rw [h2.part_at hl.room hl.lt]
    simp only [Res.ok_bind]
    have : (⟨fun f => r.arr.real f i, r.arr.ind .particleId i, r.arr.ind .atElementId i,
      r.arr.ind .atTurn i, r.arr.ind .state i⟩ : P V) = r.arr.part i := rfl
    rw [this, hf]
    simp only [Res.ok_bind]
    rw [h3]
    simp only [Res.ok_bind, Res.pure_eq]
    rw [h5]
    rfl
  · simp
  · rw [h6.real]
    by_cases hj : j = i
    · rw [if_pos hj, if_pos hj]
      have := h4.real g 0 hl1.lt
      rw [if_pos rfl] at this
      rw [← this]
      unfold Flat.realPos; rw [h4.num]
    · rw [if_neg hj, if_neg hj]
  · rw [h6.ind]
    by_cases hj : j = i
    · rw [if_pos hj, if_pos hj]
      have := h4.ind g 0 hl1.lt
      rw [if_pos rfl] at this
      rw [← this]
      unfold Flat.indPos; rw [h4.num]
    · rw [if_neg hj, if_neg hj]

theorem runOne_ub {f : One (RealField → V) R} {i : Nat} {r : Run V R} (hl : Single r.loc)
    (hi : i < r.arr.num) (hf : f ⟨⟨r.arr.part i, r.out⟩, r.recs⟩ = .ub) : runOne f i r = .ub := by
  obtain ⟨l1, h1, h2⟩ := copyFrom_eq hl.room hl.lt hi
  unfold runOne
  rw [h1]
  simp only [Res.ok_bind]
  unfold trackAt
  rw [h2.part_at hl.room hl.lt]
  simp only [Res.ok_bind]
  have : (⟨fun f => r.arr.real f i, r.arr.ind .particleId i, r.arr.ind .atElementId i,
    r.arr.ind .atTurn i, r.arr.ind .state i⟩ : P V) = r.arr.part i := rfl
  rw [this, hf]
  rfl

theorem Arrays.list_length (a : Arrays V) : a.list.length = a.num := by simp [Arrays.list]

theorem Arrays.list_get (a : Arrays V) {i : Nat} (h : i < a.num) : a.list[i]? = some (a.part i) := by
  unfold Arrays.list
  rw [List.getElem?_map, List.getElem?_range (by omega)]
  rfl

theorem ArrSet.part {i : Nat} {p : P V} {a a' : Arrays V} (h : ArrSet i p.coord (indexOf p) a a') (j : Nat) :
    a'.part j = if j = i then p else a.part j := by
  unfold Arrays.part
  by_cases hj : j = i
  · simp only [h.real, h.ind, if_pos hj]
    rfl
  · simp only [h.real, h.ind, if_neg hj]

theorem ArrSet.list {i : Nat} {p : P V} {a a' : Arrays V} (h : ArrSet i p.coord (indexOf p) a a') :
    a'.list = a.list.set i p := by
  apply List.ext_getElem?
  intro j
  by_cases hj : j < a.num
  · rw [a'.list_get (by rw [h.num]; exact hj), h.part, List.getElem?_set, a.list_length, a.list_get hj]
    by_cases hji : j = i
    · rw [if_pos hji, if_pos hji.symm, if_pos (by omega)]
    · rw [if_neg hji, if_neg (fun h => hji h.symm)]
  · rw [List.getElem?_eq_none (by rw [a'.list_length, h.num]; omega),
      List.getElem?_eq_none (by rw [List.length_set, a.list_length]; omega)]

/-- The state of the plain kernel. -/
def Run.view (r : Run V R) : JobTrack.Run (RealField → V) R := ⟨r.status, r.arr.list, r.out, r.recs⟩

theorem loop_view {f : One (RealField → V) R} {stride : Nat} : ∀ (n pidx : Nat) (r : Run V R), Single r.loc →
    JobTrack.loop f stride n pidx r.view = (loop f stride n pidx r).bind fun r' => .ok r'.view
  | 0, _, _, _ => rfl
  | n + 1, pidx, r, hl => by
    unfold JobTrack.loop loop
    have hlen : r.view.parts.length = r.arr.num := r.arr.list_length
    by_cases hi : pidx < r.arr.num
    · rw [if_pos (by rw [hlen]; omega), if_pos hi]
      have hget : r.view.parts[pidx]? = some (r.arr.part pidx) := r.arr.list_get hi
      cases hf : f ⟨⟨r.arr.part pidx, r.out⟩, r.recs⟩ with
      | ub =>
        rw [runOne_ub hl hi hf]
        have : JobTrack.runOne f pidx r.view = .ub := by
          unfold JobTrack.runOne
          rw [hget]
          dsimp only
          rw [show (⟨⟨r.arr.part pidx, r.view.out⟩, r.view.recs⟩ : EWorld _ R) =
            ⟨⟨r.arr.part pidx, r.out⟩, r.recs⟩ from rfl, hf]
          rfl
        rw [this]; rfl
      | ok x =>
        obtain ⟨r', h1, h2, h3, h4, h5, h6⟩ := runOne_ok hl hi hf
        have : JobTrack.runOne f pidx r.view = .ok r'.view := by
          unfold JobTrack.runOne
          rw [hget]
          dsimp only
          rw [show (⟨⟨r.arr.part pidx, r.view.out⟩, r.view.recs⟩ : EWorld _ R) =
            ⟨⟨r.arr.part pidx, r.out⟩, r.recs⟩ from rfl, hf]
          simp only [Res.ok_bind, Res.pure_eq]
          unfold Run.view
          rw [h3, h4.list, h5, h6]
        rw [this, h1]
        exact loop_view n _ r' h2
    · rw [if_neg (by rw [hlen]; omega), if_neg hi]
      rfl

theorem loopSet_view (zero : V) (f : One (RealField → V) R) (m : Mem V R) (set : Nat) (a : Arrays V)
    (pidx stride : Int) : JobTrack.loopSet f m.view set a.list pidx stride =
      (loopSet zero f m set a pidx stride).bind fun r => .ok (r.1, r.2.view) := by
  unfold JobTrack.loopSet loopSet
  rw [a.list_length]
  by_cases hi : pidx < a.num
  · rw [if_pos hi, if_pos hi]
    by_cases h0 : 0 ≤ pidx ∧ 0 < stride
    · rw [if_pos h0, if_pos h0]
      have := loop_view (f := f) (stride := stride.toNat) a.num pidx.toNat
        ⟨0, a, one zero, m.out, m.recs⟩ ⟨rfl, rfl, rfl⟩
      change JobTrack.loop f stride.toNat a.num pidx.toNat ⟨0, a.list, m.view.out, m.view.recs⟩ = _ at this
      rw [this]
      cases h : loop f stride.toNat a.num pidx.toNat ⟨0, a, one zero, m.out, m.recs⟩ with
      | ub => rfl
      | ok r =>
        simp only [Res.ok_bind, Res.pure_eq, Res.bind]
        unfold Mem.view Run.view
        simp only [List.map_set]
        rfl
    · rw [if_neg h0, if_neg h0]; rfl
  · rw [if_neg hi, if_neg hi]; rfl

theorem kernelOn_view (zero : V) (f : One (RealField → V) R) (m : Mem V R) {set : Nat}
    (hs : set < m.objs.length) (pidx stride : Int) : JobTrack.kernelOn f m.view set pidx stride =
      (kernelOn zero f m set pidx stride).bind fun r => .ok (r.1, r.2.view) := by
  have h1 : m.objs[set]? = some m.objs[set] := List.getElem?_eq_getElem hs
  have h2 : m.view.objs[set]? = some (m.objs[set].map Arrays.list) := by
    unfold Mem.view
    rw [List.getElem?_map, h1]; rfl
  unfold JobTrack.kernelOn kernelOn object
  rw [if_neg (by omega), h1, h2]
  simp only [Res.ok_bind]
  cases m.objs[set] with
  | none => rfl
  | some a => exact loopSet_view zero f m set a pidx stride

theorem finish_view (flags : BitVec 64) (s : Status) (m : Mem V R) :
    JobTrack.finish flags (s, m.view) = (finish flags (s, m)).bind fun r => .ok (r.1, r.2.1, r.2.2.view) := by
  unfold JobTrack.finish finish
  by_cases h : s ≠ 0
  · rw [if_pos h, if_pos h]
    cases DebugReg.storeStatus flags s <;> rfl
  · rw [if_neg h, if_neg h]; rfl

theorem loop_finish_view (zero : V) (f : One (RealField → V) R) (m : Mem V R) (set : Nat) (a : Arrays V)
    (pidx stride : Int) : (JobTrack.loopSet f m.view set a.list pidx stride).bind (JobTrack.finish 0) =
      ((loopSet zero f m set a pidx stride).bind (finish 0)).bind fun r => .ok (r.1, r.2.1, r.2.2.view) := by
  rw [loopSet_view zero]
  cases loopSet zero f m set a pidx stride with
  | ub => rfl
  | ok r => exact finish_view 0 r.1 r.2

theorem debugTurns_view (zero : V) (f : One (RealField → V) R) (a : Args) (n : Int) (m : Mem V R)
    {x : Arrays V} (hs : m.objs[a.set]? = some (some x)) : JobTrack.debugTurns f a n m.view =
      (debugTurns zero f a n m).bind fun r => .ok (r.1, r.2.1, r.2.2.view) := by
  have hlt : a.set < m.objs.length := (List.getElem?_eq_some_iff.1 hs).1
  have h2 : m.view.objs[a.set]? = some (some x.list) := by
    unfold Mem.view
    rw [List.getElem?_map, hs]; rfl
  unfold JobTrack.debugTurns debugTurns particlesOf objectOf object
  rw [if_neg (show ¬ m.objs.length < a.set by omega), hs, h2]
  cases a.pRemap with
  | true => rfl
  | false =>
    cases a.eRemap with
    | true => rfl
    | false =>
      simp only [Bool.false_eq_true, if_false, Res.ok_bind]
      by_cases hn : 0 ≤ n
      · rw [if_pos hn, if_pos hn]
        exact loop_finish_view zero f m a.set x a.pidx a.stride
      · rw [if_neg hn, if_neg hn]
        exact finish_view _ _ m

theorem lineDebug_view (zero : V) (S : Sem E (RealField → V) R) (lat : List E) (b e : Nat) (fin : Bool)
    (a : Args) (m : Mem V R) {x : Arrays V} (hs : m.objs[a.set]? = some (some x)) :
    JobTrack.lineDebug S lat b e fin a m.view =
      (lineDebug zero S lat b e fin a m).bind fun r => .ok (r.1, r.2.1, r.2.2.view) := by
  have hlt : a.set < m.objs.length := (List.getElem?_eq_some_iff.1 hs).1
  have h2 : m.view.objs[a.set]? = some (some x.list) := by
    unfold Mem.view
    rw [List.getElem?_map, hs]; rfl
  unfold JobTrack.lineDebug lineDebug particlesOf objectOf object
  rw [if_neg (show ¬ m.objs.length < a.set by omega), hs, h2]
  cases a.ok with
  | false =>
    simp only [Bool.false_eq_true, if_false]
    exact finish_view _ _ m
  | true =>
    cases a.pRemap with
    | true => rfl
    | false =>
      simp only [Bool.false_eq_true, if_false, if_true, Res.ok_bind]
      unfold JobTrack.debugLine debugLine
      simp only [Option.isSome_some, Option.isNone_some, Option.getD_some, Option.join_some]
      by_cases h : a.eRemap = false ∧ True ∧ b ≤ e ∧ b ≤ lat.length
      · simp only [if_pos h]
        cases lineOf lat b e with
        | ub => rfl
        | ok line => exact loop_finish_view zero _ m a.set x a.pidx a.stride
      · simp only [if_neg h]
        by_cases h' : a.eRemap = true ∧ b ≤ e
        · simp only [if_pos h']; rfl
        · simp only [if_neg h']
          exact finish_view _ _ m

end SixTrack.TrackOpt
