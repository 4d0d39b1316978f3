import Verif.ParticleSetsLemmas

/-!
# C74: which particle sets a track job works on
-/

namespace SixTrack
open Particles ParticleSets

/-- The sets of the buffer among the asked indices: what the job should hold. -/
structure Chosen (objs : List (Option (List Attr))) (idx : List Nat) (s : Sets) : Prop where
  /-- strictly increasing, so each set once -/
  sorted : s.indices.Pairwise (· < ·)
  mem : ∀ i, i ∈ s.indices ↔ i ∈ idx ∧ ∃ ps, objs[i]? = some (some ps)
  lengths : s.begins.length = s.indices.length ∧ s.ends.length = s.indices.length
  /-- the particles of the set are numbered after those of all sets before it in the buffer -/
  offsets : ∀ k i : Nat, s.indices[k]? = some i →
    s.begins[k]? = some (countBefore objs i : Int) ∧
      s.ends[k]? = some (countBefore objs (i + 1) : Int)
  inSets : s.totalInSets = ((chosen objs s.indices).length : Int)
  total : s.total = ((objs.flatMap particlesOf).length : Int)
  stored : s.numInBuffer = (objs.filter Option.isSome).length

/-- C74: if one of the asked objects is a particle set, the choice succeeds and the job holds exactly
the asked sets. -/
theorem C74_chosen_partial (cur : Sets) (objs : List (Option (List Attr))) (idx : List Nat)
    (keep : Bool) (i : Nat) (ps : List Attr) (hi : i ∈ idx) (hp : objs[i]? = some (some ps)) :
    (choose cur objs idx keep).1 = SUCCESS ∧ Chosen objs idx (choose cur objs idx keep).2 := by
  have hne : idx ≠ [] := List.ne_nil_of_mem hi
  have hs : sortedIdx idx ≠ [] := List.ne_nil_of_mem ((mem_sortedIdx idx i).2 hi)
  have hspec := setLoop_spec objs 0 (sortedIdx idx) 0 (sortedIdx_pairwise idx) (fun _ _ => by omega)
  have hfound : (setLoop objs 0 (sortedIdx idx) 0).indices ≠ [] :=
    List.ne_nil_of_mem ((hspec.mem i).2 ⟨(mem_sortedIdx idx i).2 hi, i, ps, by omega, hp⟩)
  have heq : choose cur objs idx keep =
      (SUCCESS, ⟨(setLoop objs 0 (sortedIdx idx) 0).indices,
        (setLoop objs 0 (sortedIdx idx) 0).begins, (setLoop objs 0 (sortedIdx idx) 0).ends,
        numBlocks objs, (setLoop objs 0 (sortedIdx idx) 0).totalInSets,
        (setLoop objs 0 (sortedIdx idx) 0).total⟩) := by
    unfold choose setIndices
    simp only [ne_eq, hne, not_false_eq_true, if_true]
    rw [if_pos (numBlocks_pos hp)]
    change (if sortedIdx idx = [] then _ else _) = _
    rw [if_neg hs]
    change (if (setLoop objs 0 (sortedIdx idx) 0).indices = [] then _ else _, _) = _
    rw [if_neg hfound]
    rfl
  rw [heq]
  generalize setLoop objs 0 (sortedIdx idx) 0 = r at hspec
  refine ⟨rfl, hspec.sorted, ?_, ?_, ?_, ?_, ?_, rfl⟩
  · intro j
    rw [hspec.mem, mem_sortedIdx]
    refine and_congr_right fun _ => ⟨?_, ?_⟩
    · rintro ⟨d, qs, h1, h2⟩
      exact ⟨qs, by rw [h1, Nat.zero_add]; exact h2⟩
    · rintro ⟨qs, h⟩
      exact ⟨j, qs, by omega, h⟩
  · simp only [hspec.begins, hspec.ends, List.length_map, and_self]
  · intro k j hk
    simp only at hk
    simp only [hspec.begins, hspec.ends, List.getElem?_map, hk, Option.map_some, Nat.sub_zero,
      Int.zero_add, and_self]
  · simpa [chosen] using hspec.inSets
  · simpa [countBefore] using hspec.total

/-- C74: the sets of a job do not overlap in the numbering of the particles, and every one has as many
particles as it holds in the buffer. -/
theorem C74_disjoint (objs : List (Option (List Attr))) (idx : List Nat) (s : Sets)
    (h : Chosen objs idx s) (k k' : Nat) (e b : Int) (hlt : k < k')
    (he : s.ends[k]? = some e) (hb : s.begins[k']? = some b) : e ≤ b := by
  have hk' : k' < s.indices.length := by
    rw [← h.lengths.1]; exact (List.getElem?_eq_some_iff.1 hb).1
  have hk : k < s.indices.length := by omega
  have h1 := (h.offsets k _ (List.getElem?_eq_getElem hk)).2
  have h2 := (h.offsets k' _ (List.getElem?_eq_getElem hk')).1
  rw [h1] at he
  rw [h2] at hb
  have hl : s.indices[k] < s.indices[k'] := List.pairwise_iff_getElem.1 h.sorted k k' hk hk' hlt
  have hmono : countBefore objs (s.indices[k] + 1) ≤ countBefore objs s.indices[k'] := by
    unfold countBefore
    obtain ⟨d, hd⟩ : ∃ d, s.indices[k'] = s.indices[k] + 1 + d := ⟨s.indices[k'] - (s.indices[k] + 1),
      by omega⟩
    rw [hd, List.take_add (i := s.indices[k] + 1) (j := d), List.flatMap_append,
      List.length_append]
    omega
  injection he with he
  injection hb with hb
  omega

theorem C74_num_in_set (objs : List (Option (List Attr))) (idx : List Nat) (s : Sets)
    (h : Chosen objs idx s) (k i : Nat) (ps : List Attr) (hk : s.indices[k]? = some i)
    (hp : objs[i]? = some (some ps)) : s.numIn k = ps.length := by
  obtain ⟨hlt, _⟩ := List.getElem?_eq_some_iff.1 hk
  obtain ⟨h1, h2⟩ := h.offsets k i hk
  have hstep : countBefore objs (i + 1) = countBefore objs i + ps.length := by
    unfold countBefore
    rw [List.take_add_one, hp]
    simp [particlesOf]
  unfold Sets.numIn
  rw [if_pos ⟨hlt, by rw [h.lengths.1, h.lengths.2], h.lengths.1⟩, h1, h2, hstep]
  simp only
  split
  · push_cast; omega
  · rename_i hn
    push_cast at hn
    omega

/-- C74: the ranges of the job are tight for the particles of the chosen sets and of no others. -/
theorem C74_ranges_tight (objs : List (Option (List Attr))) (idx : List Nat) (s : Sets)
    (h : Chosen objs idx s) (hsome : s.indices ≠ [])
    (hne : ∀ (i : Nat) (ps : List Attr), objs[i]? = some (some ps) → ps ≠ [])
    (hok : ∀ q ∈ chosen objs s.indices, AttrOk q) :
    ∃ r, findRanges objs s = .ok (0, r) ∧ TightRanges (chosen objs s.indices) r := by
  have key : ∀ (is : List Nat) (done : List Attr) (cur : Ranges), TightRanges done cur →
      (∀ i ∈ is, ∃ ps, objs[i]? = some (some ps)) → (∀ q ∈ chosen objs is, AttrOk q) →
      ∃ r, findMinMaxChosen objs is cur = .ok (0, r) ∧ TightRanges (done ++ chosen objs is) r := by
    intro is
    induction is with
    | nil => intro done cur hc _ _; exact ⟨cur, rfl, by simpa [chosen] using hc⟩
    | cons i is ih =>
      intro done cur hc hin hq
      obtain ⟨ps, hp⟩ := hin i (by simp)
      have hcons : chosen objs (i :: is) = ps ++ chosen objs is := by
        simp [chosen, hp, particlesOf]
      rw [hcons] at hq ⊢
      obtain ⟨q, h1, h2⟩ := findMinMax_local ps (hne i ps hp) (fun x hx => hq x (by simp [hx]))
      obtain ⟨r, h3, h4⟩ := ih (done ++ ps)
        ⟨updMin cur.minId q.minId, updMax cur.maxId q.maxId,
          updMin cur.minElem q.minElem, updMax cur.maxElem q.maxElem,
          updMin cur.minTurn q.minTurn, updMax cur.maxTurn q.maxTurn⟩
        ⟨hc.1.merge h1.1, hc.2.1.merge h1.2.1, hc.2.2.merge h1.2.2⟩
        (fun j hj => hin j (by simp [hj])) (fun x hx => hq x (by simp [hx]))
      refine ⟨r, ?_, by simpa [List.append_assoc] using h4⟩
      rw [findMinMaxChosen, hp]
      simp only
      rw [h2 cur, Res.ok_bind, if_pos rfl]
      exact h3
  have hin : ∀ i ∈ s.indices, ∃ ps, objs[i]? = some (some ps) := fun i hi => ((h.mem i).1 hi).2
  have hfirst : ∃ r, findMinMaxChosen objs s.indices initRanges = .ok (0, r) ∧
      TightRanges (chosen objs s.indices) r := by
    obtain ⟨i, is, his⟩ := List.exists_cons_of_ne_nil hsome
    rw [his] at hin hok ⊢
    obtain ⟨ps, hp⟩ := hin i (by simp)
    have hcons : chosen objs (i :: is) = ps ++ chosen objs is := by
      simp [chosen, hp, particlesOf]
    rw [hcons] at hok ⊢
    obtain ⟨q, h1, h2⟩ := findMinMax_local ps (hne i ps hp) (fun x hx => hok x (by simp [hx]))
    obtain ⟨r, h3, h4⟩ := key is ps q h1 (fun j hj => hin j (by simp [hj]))
      (fun x hx => hok x (by simp [hx]))
    refine ⟨r, ?_, h4⟩
    rw [findMinMaxChosen, hp]
    simp only
    rw [h2 initRanges, Res.ok_bind, if_pos rfl,
      tightRanges_init h1 (fun x hx => hok x (by simp [hx]))]
    exact h3
  have hlen : objs.length ≥ s.indices.length := by
    have hnd : s.indices.Nodup := h.sorted.imp (fun h => Nat.ne_of_lt h)
    have hsub : s.indices ⊆ List.range objs.length := by
      intro i hi
      obtain ⟨ps, hp⟩ := hin i hi
      exact List.mem_range.2 (List.getElem?_eq_some_iff.1 hp).1
    have := hnd.length_le_of_subset hsub
    simpa using this
  unfold findRanges
  rw [if_pos hlen]
  split
  · rename_i h0; exact absurd h0 hsome
  · rename_i i hi
    split
    · rename_i h0
      subst h0
      obtain ⟨r, h1, h2⟩ := hfirst
      refine ⟨r, ?_, h2⟩
      obtain ⟨ps, hp⟩ := hin 0 (by simp [hi])
      rw [hi, findMinMaxChosen, hp] at h1
      simp only at h1
      rw [hp]
      obtain ⟨x, hx1, hx2⟩ := Res.bind_eq_ok.1 h1
      by_cases hx : x.1 = 0
      · rw [if_pos hx, findMinMaxChosen, Res.ok_inj] at hx2
        show findMinMax ps initRanges = _
        rw [hx1, ← hx2, ← hx]
      · rw [if_neg hx, Res.pure_eq, Res.ok_inj] at hx2
        exact absurd (by rw [hx2]) hx
    · exact hfirst
  · exact hfirst

/-! ## What is wrong -/

/-- C74 is false: indices of objects that are no particle sets, and indices beyond the buffer, are
dropped without a failure. -/
theorem C74_dropped_violated :
    ∃ (objs : List (Option (List Attr))) (idx : List Nat) (s : Sets),
      (choose ⟨[0], [0], [0], 0, 0, 0⟩ objs idx false) = (SUCCESS, s) ∧
      1 ∈ idx ∧ 7 ∈ idx ∧ objs.length ≤ 7 ∧ s.indices = [2] :=
  ⟨[some [⟨1, 0, 0⟩], none, some [⟨2, 0, 0⟩]], [7, 2, 1],
    ⟨[2], [1], [2], 2, 1, 2⟩, by decide +kernel⟩

/-- C74 is false of the default choice: without indices the job works on set 0 but counts no particles
in it. -/
theorem C74_default_violated (cur : Sets) (ps : List Attr) (objs : List (Option (List Attr)))
    (hps : ps ≠ []) :
    (choose cur (some ps :: objs) [] false).1 = SUCCESS ∧
      (choose cur (some ps :: objs) [] false).2.indices = [0] ∧
      (choose cur (some ps :: objs) [] false).2.numIn 0 ≠ ps.length ∧
      (choose cur (some ps :: objs) [] false).2.total = 0 := by
  have : 0 < ps.length := List.length_pos_iff.2 hps
  refine ⟨rfl, rfl, ?_, rfl⟩
  have h0 : (choose cur (some ps :: objs) [] false).2.numIn 0 = 0 := rfl
  rw [h0]
  omega

/-- C74: without a C++ beam elements buffer or without a C++ output buffer, choosing a stored set
succeeds. -/
theorem C74_select_c (cur : Sets) (objs : List (Option (List Attr))) (cxxElems : Bool) (out : OutBuf)
    (k : Nat) (ps : List Attr) (hp : objs[k]? = some (some ps))
    (hb : cxxElems = false ∨ out = .none ∨ out = .c) :
    ∃ r, selectSet cur objs cxxElems out k = .ok r ∧ r.status = SUCCESS ∧ r.sets.indices = [k] ∧
      Chosen objs [k] r.sets ∧ (r.outputCleared = true ↔ out = .cxx ∨ out = .c) := by
  have hk : k < objs.length := (List.getElem?_eq_some_iff.1 hp).1
  have hn : ¬ (cxxElems = true ∧ (out = .own ∨ out = .cxx)) := by
    rcases hb with h | h | h <;> simp [h]
  obtain ⟨h1, h2⟩ := C74_chosen_partial cur objs [k] (decide (cur.indices = [k])) k ps (by simp) hp
  refine ⟨_, by unfold selectSet; rw [if_pos hk, if_neg hn], h1, ?_, h2, by simp⟩
  have hsub : ∀ i ∈ (choose cur objs [k] (decide (cur.indices = [k]))).2.indices, i = k :=
    fun i hi => by simpa using ((h2.mem i).1 hi).1
  have hmem : k ∈ (choose cur objs [k] (decide (cur.indices = [k]))).2.indices :=
    (h2.mem k).2 ⟨by simp, ps, hp⟩
  have hsorted := h2.sorted
  simp only
  generalize (choose cur objs [k] (decide (cur.indices = [k]))).2.indices = l at *
  match l with
  | [] => simp at hmem
  | [a] => rw [hsub a (by simp)]
  | a :: b :: l =>
    have ha := hsub a (by simp)
    have hb := hsub b (by simp)
    have := (List.pairwise_cons.1 hsorted).1 b (by simp)
    omega

/-- C74 is false of a job with C++ buffers: choosing a set of the particles buffer fails after the
output of the caller has been cleared; with an output buffer of its own the job reads freed memory. -/
theorem C74_select_cxx_violated (cur : Sets) (objs : List (Option (List Attr))) (k : Nat)
    (ps : List Attr) (hp : objs[k]? = some (some ps)) :
    (∃ r, selectSet cur objs true .cxx k = .ok r ∧ r.status = FAILURE ∧ r.outputCleared = true) ∧
      selectSet cur objs true .own k = .ub := by
  have hk : k < objs.length := (List.getElem?_eq_some_iff.1 hp).1
  refine ⟨⟨⟨FAILURE, true, (choose cur [] [k] false).2⟩, ?_, rfl, rfl⟩, ?_⟩
  · unfold selectSet
    rw [if_pos hk, if_pos ⟨rfl, .inr rfl⟩]
    rfl
  · unfold selectSet
    rw [if_pos hk, if_pos ⟨rfl, .inl rfl⟩, if_pos rfl]

/-! ## What is refused -/

/-- C74: to ask for no set at all is refused, and the job then has none. -/
theorem C74_none_asked (cur : Sets) (objs : List (Option (List Attr))) :
    (setIndices cur objs []).1 = FAILURE ∧ (setIndices cur objs []).2.indices = [] ∧
      (setIndices cur objs []).2.begins = [] ∧ (setIndices cur objs []).2.ends = [] := by
  unfold setIndices
  simp only
  split
  · rw [if_pos (show unique (sortIdx []) = [] from rfl)]; exact ⟨rfl, rfl, rfl, rfl⟩
  · exact ⟨rfl, rfl, rfl, rfl⟩

/-- C74: no ranges are found for a job one of whose sets is no set of particles. -/
theorem C74_ranges_refused (objs : List (Option (List Attr))) (s : Sets) (i : Nat) (hi : i ∈ s.indices)
    (ho : objs[i]? = some none) (r : Int × Ranges) (h : findRanges objs s = .ok r) : r.1 ≠ 0 := by
  have key : ∀ (is : List Nat) (cur : Ranges), i ∈ is → findMinMaxChosen objs is cur = .ok r → r.1 ≠ 0 := by
    intro is
    induction is with
    | nil => intro cur hm; cases hm
    | cons k is ih =>
      intro cur hm hf
      unfold findMinMaxChosen at hf
      split at hf
      · cases hf
      · have hf := (Res.ok_inj _ _).1 hf
        subst hf; exact (by decide : (-1 : Int) ≠ 0)
      · rename_i ps hps
        rw [Res.bind_eq_ok] at hf
        obtain ⟨a, -, hf⟩ := hf
        split at hf
        · refine ih a.2 ?_ hf
          rcases List.mem_cons.1 hm with rfl | hm
          · rw [ho] at hps; cases hps
          · exact hm
        · rename_i hne
          have hf := (Res.ok_inj _ _).1 hf
          subst hf; exact hne
  unfold findRanges at h
  split at h
  · split at h
    · rename_i he; rw [he] at hi; cases hi
    · rename_i k he
      split at h
      · rename_i hk
        rw [he] at hi
        have : i = 0 := by rw [List.mem_singleton.1 hi]; exact hk
        subst this
        rw [ho] at h
        have h := (Res.ok_inj _ _).1 h
        subst h; exact (by decide : (-1 : Int) ≠ 0)
      · exact key _ _ hi h
    · exact key _ _ hi h
  · have h := (Res.ok_inj _ _).1 h
    subst h; exact (by decide : (-1 : Int) ≠ 0)

example : findRanges [some [⟨1, 0, 0⟩], none] ⟨[0, 1], [0, 1], [1, 1], 1, 1, 1⟩ =
    .ok (-1, ⟨1, 1, 0, 0, 0, 0⟩) := by decide +kernel

/-! ## The hypotheses are met -/

/-- three sets and another object -/
def setObjs : List (Option (List Attr)) :=
  [some [⟨1, 0, 0⟩, ⟨2, 3, 0⟩], none, some [⟨-7, 1, 1⟩], some [⟨5, 0, 2⟩, ⟨6, 0, 4⟩, ⟨9, 2, 2⟩]]

example : choose ⟨[0], [0], [0], 0, 0, 0⟩ setObjs [3, 0, 3] false =
    (SUCCESS, ⟨[0, 3], [0, 3], [2, 6], 3, 5, 6⟩) := by decide +kernel

example : setObjs[3]? = some (some [⟨5, 0, 2⟩, ⟨6, 0, 4⟩, ⟨9, 2, 2⟩]) ∧
    (∀ q ∈ chosen setObjs [0, 3], AttrOk q) := by decide +kernel

/-- the sets of the example are chosen, and their ranges leave out the set between them -/
example : Chosen setObjs [3, 0, 3] ⟨[0, 3], [0, 3], [2, 6], 3, 5, 6⟩ ∧
    findRanges setObjs ⟨[0, 3], [0, 3], [2, 6], 3, 5, 6⟩ = .ok (0, ⟨1, 9, 0, 3, 0, 4⟩) := by
  refine ⟨?_, by decide +kernel⟩
  have h := (C74_chosen_partial ⟨[0], [0], [0], 0, 0, 0⟩ setObjs [3, 0, 3] false 0 _ (by decide)
    (rfl : setObjs[0]? = some (some [⟨1, 0, 0⟩, ⟨2, 3, 0⟩]))).2
  rwa [show choose ⟨[0], [0], [0], 0, 0, 0⟩ setObjs [3, 0, 3] false =
    (SUCCESS, ⟨[0, 3], [0, 3], [2, 6], 3, 5, 6⟩) by decide +kernel] at h

end SixTrack
