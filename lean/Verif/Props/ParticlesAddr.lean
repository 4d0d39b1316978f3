import Verif.ParticlesAddrLemmas

/-!
# C75: stored addresses lead to the particles
-/

namespace SixTrack
open Particles ParticlesAddr

/-- C75: preparing the address buffer succeeds exactly if every record finds memory; the buffer then
has one record for every object, with the number of particles and no addresses. -/
theorem C75_prepare (alloc : Nat → Bool) (pb : List (Option Rec)) :
    ((prepare alloc pb).1 = SUCCESS ↔ ∀ i, i < pb.length → alloc i = true) ∧
      ((prepare alloc pb).1 = SUCCESS → (prepare alloc pb).2.length = pb.length ∧
        ∀ i (hi : i < pb.length), ∃ r, (prepare alloc pb).2[i]? = some (some r) ∧
          r.num = (match pb[i] with | some p => p.num | none => 0) ∧ ∀ f, r.addr f = 0) := by
  have hspec := prepareLoop_spec alloc pb 0
  have hst : (prepare alloc pb).1 = SUCCESS ↔ (prepareLoop alloc pb 0).2.length = pb.length := by
    unfold prepare
    simp only
    constructor
    · intro h
      by_cases hc : (prepareLoop alloc pb 0).1 = (pb.filter Option.isSome).length ∧
          pb.length = (prepareLoop alloc pb 0).2.length
      · exact hc.2.symm
      · rw [if_neg hc] at h
        exact absurd h (by decide)
    · intro h
      rw [if_pos ⟨(hspec.2 h).2.1, h.symm⟩]
  refine ⟨?_, fun h => ?_⟩
  · rw [hst]
    constructor
    · intro h i hi
      simpa using (hspec.2 h).1 i hi
    · intro h
      exact prepareLoop_all alloc pb 0 (fun i hi => by simpa using h i hi)
  · have hl := hst.1 h
    refine ⟨hl, fun i hi => ?_⟩
    refine ⟨newRec (pb[i].elim 0 Rec.num), ?_, ?_, fun f => ?_⟩
    · show (prepareLoop alloc pb 0).2[i]? = _
      rw [(hspec.2 hl).2.2, List.getElem?_map, List.getElem?_eq_getElem hi]
      rfl
    · cases pb[i] <;> rfl
    · show (preset ⟨0, fun _ => 0⟩).addr f = 0
      rw [preset_eq]

/-- C75: storing the addresses in a prepared buffer succeeds, and from every record the pointers and the
number of particles of its set are restored, whatever they are written over. -/
theorem C75_stored_partial (alloc : Nat → Bool) (pb : List (Option Rec)) (hne : pb ≠ [])
    (h : (prepare alloc pb).1 = SUCCESS) :
    ∃ ab, storeAll (prepare alloc pb).2 pb = .ok (SUCCESS, ab) ∧ ab.length = pb.length ∧
      ∀ (i : Nat) (p : Rec), pb[i]? = some (some p) →
        ∃ r, ab[i]? = some (some r) ∧ ∀ q, assignTo r q = p := by
  obtain ⟨hl, hrec⟩ := (C75_prepare alloc pb).2 h
  have hpos : 0 < pb.length := List.length_pos_iff.2 hne
  refine ⟨pb.map stored, ?_, by simp, ?_⟩
  · unfold storeAll
    rw [if_pos ⟨hpos, hl.symm⟩]
    refine storeLoop_ok pb pb.length 0 _ _ hl (by omega) (fun h0 => by omega)
      (fun j hj => by omega) (fun j _ hj => ?_)
    obtain ⟨r, h1, _⟩ := hrec j (by omega)
    exact ⟨r, h1⟩
  · intro i p hp
    refine ⟨p, ?_, fun q => assignTo_eq p q⟩
    rw [List.getElem?_map, hp]
    rfl

/-- C75: moving a record by an offset moves every address by it, if none is null and none leaves the
address space. -/
theorem C75_shift_partial (r : Rec) (d : Int) (hz : ∀ f, r.addr f ≠ 0)
    (hd : -2 ^ 63 < d ∧ d < 2 ^ 63)
    (hr : ∀ f, 0 ≤ (r.addr f : Int) + d ∧ (r.addr f : Int) + d < 2 ^ 64) :
    ∃ r', remap r d = .ok r' ∧ r'.num = r.num ∧ ∀ f, (r'.addr f : Int) = r.addr f + d := by
  unfold remap
  by_cases h0 : d = 0
  · exact ⟨r, by rw [if_pos (.inl h0)], rfl, fun f => by omega⟩
  · have hn : ¬ (d = 0 ∨ fields.any (fun f => r.addr f == 0) = true) := by
      rintro (h | h)
      · exact h0 h
      · obtain ⟨f, hf⟩ := (any_zero_iff r).1 h
        exact hz f hf
    rw [if_neg hn]
    by_cases hp : d > 0
    · rw [if_pos hp]
      refine ⟨_, rfl, foldSet_num (fun q f => (q.addr f + d.toNat) % 2 ^ 64) fields r, fun f => ?_⟩
      rw [fieldsSet_addr (fun _ a => (a + d.toNat) % 2 ^ 64) r f]
      have := hr f
      rw [Nat.mod_eq_of_lt (by omega)]
      omega
    · rw [if_neg hp, i64_ok (by unfold I64; omega), Res.ok_bind]
      refine ⟨_, rfl, foldSet_num
        (fun q f => if q.addr f ≥ (-d).toNat then q.addr f - (-d).toNat else 0) fields r, fun f => ?_⟩
      rw [fieldsSet_addr (fun _ a => if a ≥ (-d).toNat then a - (-d).toNat else 0) r f]
      have := hr f
      rw [if_pos (by omega)]
      omega

/-- C75: moving back restores the record. -/
theorem C75_shift_back_partial (r : Rec) (d : Int) (hz : ∀ f, r.addr f ≠ 0)
    (hd : -2 ^ 63 < d ∧ d < 2 ^ 63)
    (hr : ∀ f, 0 < (r.addr f : Int) + d ∧ (r.addr f : Int) + d < 2 ^ 64)
    (hu : ∀ f, r.addr f < 2 ^ 64) :
    ∃ r', remap r d = .ok r' ∧ remap r' (-d) = .ok r := by
  obtain ⟨r', h1, h2, h3⟩ := C75_shift_partial r d hz hd (fun f => ⟨by have := hr f; omega, (hr f).2⟩)
  obtain ⟨r'', h4, h5, h6⟩ := C75_shift_partial r' (-d) (fun f => by have := hr f; have := h3 f; omega)
    (by omega) (fun f => by have := h3 f; have := hu f; omega)
  refine ⟨r', h1, ?_⟩
  have heq : r'' = r := Rec.ext' (by rw [h5, h2]) (fun f => by have := h3 f; have := h6 f; omega)
  rw [h4, heq]

/-- C75: records compare as equal exactly if they are, and exchanging them changes the sign. -/
theorem C75_compare (l r : Rec) :
    (ParticlesAddr.compare (some l) (some r) = 0 ↔ l = r) ∧
      ParticlesAddr.compare (some r) (some l) = -ParticlesAddr.compare (some l) (some r) := by
  refine ⟨compare_eq_zero l r, ?_⟩
  simp only [ParticlesAddr.compare]
  rw [← cmpFold_antisymm]
  congr 1
  by_cases h : l.num = r.num
  · rw [if_pos h, if_pos h.symm]; rfl
  · rw [if_neg h, if_neg (Ne.symm h)]
    by_cases hg : l.num > r.num
    · have hn : ¬ r.num > l.num := by omega
      rw [if_pos hg, if_neg hn]
    · have hp : r.num > l.num := by omega
      rw [if_neg hg, if_pos hp]; rfl

/-- C75: so do buffers of records. -/
theorem C75_compare_all_partial (ls rs : List Rec) :
    compareAll (ls.map some) (rs.map some) = 0 ↔ ls = rs := by
  have key : ∀ (ls rs : List Rec), ls.length = rs.length →
      (compareLoop (ls.map some) (rs.map some) = 0 ↔ ls = rs) := by
    intro ls
    induction ls with
    | nil => intro rs h; cases rs with
      | nil => simp [compareLoop]
      | cons => simp at h
    | cons l ls ih =>
      intro rs h
      cases rs with
      | nil => simp at h
      | cons r rs =>
        simp only [List.map_cons, compareLoop]
        by_cases hc : ParticlesAddr.compare (some l) (some r) = 0
        · rw [if_neg (not_not_intro hc), ih rs (by simpa using h), (compare_eq_zero l r).1 hc]
          simp
        · rw [if_pos hc]
          constructor
          · exact fun h0 => absurd h0 hc
          · intro h0
            injection h0 with h0
            exact absurd ((compare_eq_zero l r).2 h0) hc
  unfold compareAll
  simp only [List.length_map]
  by_cases h : ls.length = rs.length
  · rw [if_pos h, key ls rs h]
  · rw [if_neg h]
    constructor
    · split <;> (intro h0; exact absurd h0 (by decide))
    · exact fun h0 => absurd (by rw [h0]) h

/-! ## What is wrong -/

/-- C75 is false of moves towards 0: addresses below the offset become null while the others move, and
the record then cannot be moved any more. -/
theorem C75_saturated_violated :
    ∃ (r r' : Rec), (∀ f, r.addr f ≠ 0) ∧ remap r (-8) = .ok r' ∧ r'.addr .q0 = 0 ∧
      (∀ f, f ≠ .q0 → r'.addr f = r.addr f - 8) ∧ remap r' 8 = .ok r' := by
  refine ⟨⟨3, fun f => if f = .q0 then 4 else 64⟩,
    fields.foldl (fun q f => q.set f (if q.addr f ≥ 8 then q.addr f - 8 else 0))
      ⟨3, fun f => if f = .q0 then 4 else 64⟩, ?_, rfl, ?_, ?_, ?_⟩
  · intro f
    show (if f = .q0 then 4 else 64) ≠ 0
    split <;> decide
  · rw [fieldsSet_addr (fun _ a => if a ≥ 8 then a - 8 else 0)]; rfl
  · intro f hf
    rw [fieldsSet_addr (fun _ a => if a ≥ 8 then a - 8 else 0)]
    simp [hf]
  · unfold remap
    rw [if_pos]
    right
    refine (any_zero_iff _).2 ⟨.q0, ?_⟩
    rw [fieldsSet_addr (fun _ a => if a ≥ 8 then a - 8 else 0)]; rfl

/-- C75 is false of the smallest offset: negating it is undefined. -/
theorem C75_min_offset_violated (r : Rec) (hz : ∀ f, r.addr f ≠ 0) : remap r (-2 ^ 63) = .ub := by
  have hn : ¬ ((-2 ^ 63 : Int) = 0 ∨ fields.any (fun f => r.addr f == 0) = true) := by
    rintro (h | h)
    · exact absurd h (by decide)
    · obtain ⟨f, hf⟩ := (any_zero_iff r).1 h
      exact hz f hf
  unfold remap
  rw [if_neg hn, if_neg (by decide)]
  rfl

/-- C75 is false of cleared records: they keep the number of particles, so that the restored set has
particles but no arrays. -/
theorem C75_cleared_violated (r q : Rec) (h : r.num ≠ 0) :
    clearAll [some r] = (SUCCESS, [some (clear r)]) ∧ (assignTo (clear r) q).num ≠ 0 ∧
      ∀ f, (assignTo (clear r) q).addr f = 0 := by
  rw [assignTo_eq]
  exact ⟨rfl, by rw [clear_num]; exact h, clear_addr r⟩

/-- C75 is false of buffers with objects of other types: they differ from themselves. -/
theorem C75_compare_self_violated : ∃ ab : List (Option Rec), compareAll ab ab ≠ 0 :=
  ⟨[none], by decide⟩

/-- C75 is false of an empty particles buffer: the address buffer is prepared with success, storing
fails. -/
theorem C75_empty_violated (alloc : Nat → Bool) :
    (prepare alloc []).1 = SUCCESS ∧ storeAll (prepare alloc []).2 [] = .ok (FAILURE, []) :=
  ⟨rfl, rfl⟩

/-! ## The hypotheses are met -/

/-- a set of two particles whose arrays lie behind one another -/
def addrSet : Rec := ⟨2, fun f => 4096 + 16 * (fields.idxOf f)⟩

example : (prepare (fun _ => true) [some addrSet, none]).1 = SUCCESS := rfl

example : (∀ f, addrSet.addr f ≠ 0) ∧ (∀ f, 0 < (addrSet.addr f : Int) + -64 ∧
    (addrSet.addr f : Int) + -64 < 2 ^ 64) ∧ ∀ f, addrSet.addr f < 2 ^ 64 := by
  refine ⟨fun f => ?_, fun f => ?_, fun f => ?_⟩ <;> cases f <;> decide

example : ∃ r', remap addrSet (-64) = .ok r' ∧ r'.addr .state = 4352 := ⟨_, rfl, rfl⟩

/-! ## Buffers with other objects -/

/-- C75: buffers of addresses compare as equal exactly if they are equal and hold nothing but records. -/
theorem C75_compare_all (ls rs : List (Option Rec)) :
    compareAll ls rs = 0 ↔ ls = rs ∧ ∀ l ∈ ls, l ≠ none := by
  have hc : ∀ l r : Option Rec, ParticlesAddr.compare l r = 0 ↔ l = r ∧ l ≠ none := by
    intro l r
    cases l with
    | none => simp [ParticlesAddr.compare]
    | some l => cases r with
      | none => simp [ParticlesAddr.compare]
      | some r => rw [(C75_compare l r).1]; simp
  have key : ∀ (ls rs : List (Option Rec)), ls.length = rs.length →
      (compareLoop ls rs = 0 ↔ ls = rs ∧ ∀ l ∈ ls, l ≠ none) := by
    intro ls
    induction ls with
    | nil => intro rs h; cases rs with
      | nil => simp [compareLoop]
      | cons => simp at h
    | cons l ls ih =>
      intro rs h
      cases rs with
      | nil => simp at h
      | cons r rs =>
        rw [compareLoop]
        by_cases h0 : ParticlesAddr.compare l r = 0
        · rw [if_neg (fun h1 => h1 h0), ih rs (by simpa using h)]
          obtain ⟨rfl, h1⟩ := (hc l r).1 h0
          simp [h1]
        · rw [if_pos h0]
          constructor
          · intro h1; exact absurd h1 h0
          · rintro ⟨h1, h2⟩
            injection h1 with h1 _
            exact absurd ((hc l r).2 ⟨h1, h2 l (by simp)⟩) h0
  unfold compareAll
  by_cases h : ls.length = rs.length
  · rw [if_pos h]; exact key ls rs h
  · rw [if_neg h]
    constructor
    · intro h1; split at h1 <;> cases h1
    · rintro ⟨rfl, _⟩; exact absurd rfl h

example : ∃ l : Option Rec, l ≠ none ∧ compareAll [l] [none] ≠ 0 ∧ compareAll [none] [l] ≠ 0 :=
  ⟨some addrSet, by simp, by decide, by decide⟩

/-- C75: storing all addresses succeeds exactly if there is something to store and the buffer of addresses has
a record for every object. -/
theorem C75_store_all (ab pb : List (Option Rec)) :
    ∃ x, storeAll ab pb = .ok x ∧ x.2.length = ab.length ∧
      (x.1 = SUCCESS ↔ pb ≠ [] ∧ pb.length = ab.length ∧ ∀ r ∈ ab, r ≠ none) := by
  have hst : ∀ (ab : List (Option Rec)) (i : Nat), i < ab.length → i < pb.length →
      ∃ y, store ab pb i = .ok y ∧ y.2.length = ab.length ∧ (y.1 = SUCCESS ↔ ab[i]? ≠ some none) ∧
        ∀ j, j ≠ i → y.2[j]? = ab[j]? := by
    intro ab i h1 h2
    unfold store
    rw [List.getElem?_eq_getElem h1, List.getElem?_eq_getElem h2]
    cases ab[i] with
    | none => exact ⟨_, rfl, rfl, by simp; decide, fun _ _ => rfl⟩
    | some r =>
      cases pb[i] with
      | none =>
        exact ⟨_, rfl, by simp, by simp, fun j hj => by rw [List.getElem?_set_ne (fun h => hj h.symm)]⟩
      | some p =>
        exact ⟨_, rfl, by simp, by simp, fun j hj => by rw [List.getElem?_set_ne (fun h => hj h.symm)]⟩
  have key : ∀ (n i : Nat) (ab : List (Option Rec)) (st : Int), i + n = pb.length → ab.length = pb.length →
      ∃ x, storeLoop pb n i ab st = .ok x ∧ x.2.length = ab.length ∧
        (x.1 = SUCCESS ↔ (n = 0 → st = SUCCESS) ∧ ∀ j, i ≤ j → j < pb.length → ab[j]? ≠ some none) := by
    intro n
    induction n with
    | zero =>
      intro i ab st hi _
      refine ⟨_, rfl, rfl, ⟨fun h => ⟨fun _ => h, fun j h1 h2 => by omega⟩, fun h => h.1 rfl⟩⟩
    | succ n ih =>
      intro i ab st hi hl
      obtain ⟨y, hy, hyl, hys, hyo⟩ := hst ab i (by omega) (by omega)
      rw [storeLoop, hy, Res.ok_bind]
      by_cases hs : y.1 = SUCCESS
      · rw [if_pos hs]
        obtain ⟨x, hx, hxl, hxs⟩ := ih (i + 1) y.2 y.1 (by omega) (by rw [hyl, hl])
        refine ⟨x, hx, by rw [hxl, hyl], hxs.trans ?_⟩
        constructor
        · rintro ⟨-, h⟩
          refine ⟨by omega, fun j h1 h2 => ?_⟩
          by_cases hj : j = i
          · subst hj; exact hys.1 hs
          · rw [← hyo j hj]; exact h j (by omega) h2
        · rintro ⟨-, h⟩
          refine ⟨fun _ => hs, fun j h1 h2 => ?_⟩
          rw [hyo j (by omega)]
          exact h j (by omega) h2
      · rw [if_neg hs]
        refine ⟨y, rfl, hyl, ⟨fun h => absurd h hs, fun h => ?_⟩⟩
        exact absurd (hys.2 (h.2 i (Nat.le_refl i) (by omega))) hs
  unfold storeAll
  by_cases h : pb.length > 0 ∧ pb.length = ab.length
  · rw [if_pos h]
    obtain ⟨x, hx, hxl, hxs⟩ := key pb.length 0 ab FAILURE (by omega) h.2.symm
    refine ⟨x, hx, hxl, hxs.trans ?_⟩
    constructor
    · rintro ⟨-, h2⟩
      refine ⟨List.length_pos_iff.1 h.1, h.2, fun r hr hn => ?_⟩
      obtain ⟨j, hj⟩ := List.mem_iff_getElem?.1 hr
      have hlt : j < ab.length := (List.getElem?_eq_some_iff.1 hj).1
      rw [hn] at hj
      exact h2 j (by omega) (by omega) hj
    · rintro ⟨-, -, h2⟩
      refine ⟨fun h0 => by omega, fun j _ _ hj => ?_⟩
      exact h2 none (List.mem_of_getElem? hj) rfl
  · rw [if_neg h]
    refine ⟨_, rfl, rfl, ⟨fun h1 => absurd (show FAILURE = SUCCESS from h1) (by decide), ?_⟩⟩
    rintro ⟨h1, h2, -⟩
    exact absurd ⟨List.length_pos_iff.2 h1, h2⟩ h

example : ∃ ab pb : List (Option Rec), pb ≠ [] ∧ pb.length = ab.length ∧ (∀ r ∈ ab, r ≠ none) ∧
    none ∈ pb := ⟨[some addrSet, some addrSet], [some addrSet, none], by simp, rfl, by simp, by simp⟩

/-- C75: moving a buffer of addresses moves every record and leaves the other objects as they are. -/
theorem C75_shift_all (ab ab' : List (Option Rec)) (d : Int) (h : remapAll ab d = .ok ab') :
    ab'.length = ab.length ∧ (∀ i : Nat, ab[i]? = some none → ab'[i]? = some none) ∧
    ∀ (i : Nat) (r : Rec), ab[i]? = some (some r) → ∃ r', remap r d = .ok r' ∧ ab'[i]? = some (some r') := by
  induction ab generalizing ab' with
  | nil =>
    have h := (Res.ok_inj _ _).1 h
    subst h; exact ⟨rfl, fun i hi => by simp at hi, fun i r hi => by simp at hi⟩
  | cons a ab ih =>
    cases a with
    | none =>
      rw [remapAll, Res.bind_eq_ok] at h
      obtain ⟨rest, hrest, h⟩ := h
      have h := (Res.ok_inj _ _).1 h
      subst h
      obtain ⟨i1, i2, i3⟩ := ih rest hrest
      refine ⟨by simp [i1], fun i hi => ?_, fun i r hi => ?_⟩
      · cases i with
        | zero => rfl
        | succ i => exact i2 i (by simpa using hi)
      · cases i with
        | zero => simp at hi
        | succ i => exact i3 i r (by simpa using hi)
    | some a =>
      rw [remapAll, Res.bind_eq_ok] at h
      obtain ⟨a', ha, h⟩ := h
      rw [Res.bind_eq_ok] at h
      obtain ⟨rest, hrest, h⟩ := h
      have h := (Res.ok_inj _ _).1 h
      subst h
      obtain ⟨i1, i2, i3⟩ := ih rest hrest
      refine ⟨by simp [i1], fun i hi => ?_, fun i r hi => ?_⟩
      · cases i with
        | zero => simp at hi
        | succ i => exact i2 i (by simpa using hi)
      · cases i with
        | zero =>
          simp only [List.getElem?_cons_zero, Option.some.injEq] at hi
          subst hi
          exact ⟨a', ha, rfl⟩
        | succ i => exact i3 i r (by simpa using hi)

example : ∃ ab', remapAll [none, some addrSet] 64 = .ok ab' := ⟨_, rfl⟩

end SixTrack
