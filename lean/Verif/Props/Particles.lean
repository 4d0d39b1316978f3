import Verif.ParticlesLemmas

/-!
# Properties C27, C28 and C29: particle id ranges, attribute ranges, copies
-/

namespace SixTrack

open Particles

/-! ### C27 -/

/-- Determining the range of the ids succeeds exactly if there is a particle and no two particles have
the same absolute id; the result is then the smallest and the largest absolute id.  Ids are any
`int64_t` but `INT64_MIN`, whose negation is undefined. -/
theorem C27_range_or_duplicate (debug : Bool) (ids : List Int) (hne : ids ≠ [])
    (hr : ∀ z ∈ ids, -2^63 < z ∧ z < 2^63) :
    (¬ (ids.map Int.natAbs).Nodup ∧ getMinMaxId debug ids = .ok none) ∨
    ((ids.map Int.natAbs).Nodup ∧
      ∃ mn mx : Int, getMinMaxId debug ids = .ok (some (mn, mx)) ∧
        (∃ z ∈ ids, (z.natAbs : Int) = mn) ∧ (∃ z ∈ ids, (z.natAbs : Int) = mx) ∧
        ∀ z ∈ ids, mn ≤ z.natAbs ∧ (z.natAbs : Int) ≤ mx) := by
  have hlen : 0 < ids.length := List.length_pos_iff.2 hne
  obtain ⟨n, hn⟩ : ∃ n, ids.length = n + 1 := ⟨ids.length - 1, by omega⟩
  have hnod : (ids.map fun z => (z.natAbs : Int)).Nodup ↔ (ids.map Int.natAbs).Nodup := by
    rw [show (ids.map fun z => (z.natAbs : Int)) = (ids.map Int.natAbs).map (fun k : Nat => (k : Int)) by
      rw [List.map_map]; rfl]
    exact List.nodup_map_iff (fun a b h => by omega)
  unfold getMinMaxId
  rw [if_pos hlen, absAll_eq hr, Res.ok_bind, hn]
  dsimp only
  generalize hl : (ids.map fun z => (z.natAbs : Int)) = l at *
  have hll : l.length = n + 1 := by rw [← hl]; simpa using hn
  have hseg := seg_getD l
  rw [hll] at hseg
  have hs := mergeSort_spec (fun i => l.getD i 0) 0 n
  rw [Nat.zero_add, hseg] at hs
  rw [Nat.add_sub_cancel]
  rcases hs with ⟨p1, p2, p3, -⟩ | ⟨p1, p2⟩
  · right
    generalize (mergeSort (fun i => l.getD i 0) 0 n) = r at *
    refine ⟨hnod.1 (p3.nodup_iff.1 (nodup_of_sorted p2)), r.2 0, r.2 n, ?_, ?_, ?_, ?_⟩
    · simp [p1, strictlyIncreasing_of_sorted p2]
    · have : r.2 0 ∈ seg r.2 0 (n + 1) := by simp [seg]
      rw [p3.mem_iff, ← hl, List.mem_map] at this
      obtain ⟨z, hz, e⟩ := this
      exact ⟨z, hz, e⟩
    · have : r.2 n ∈ seg r.2 0 (n + 1) := by rw [seg_append]; simp [seg]
      rw [p3.mem_iff, ← hl, List.mem_map] at this
      obtain ⟨z, hz, e⟩ := this
      exact ⟨z, hz, e⟩
    · intro z hz
      have : (z.natAbs : Int) ∈ seg r.2 0 (n + 1) := by
        rw [p3.mem_iff, ← hl, List.mem_map]; exact ⟨z, hz, rfl⟩
      obtain ⟨i, hi, e⟩ := List.getElem_of_mem this
      rw [List.pairwise_iff_getElem] at p2
      have hi' := hi
      rw [seg_length] at hi'
      rw [seg_getElem] at e
      rw [← e, Nat.zero_add]
      constructor
      · by_cases h0 : i = 0
        · subst h0; omega
        · have := p2 0 i (by simp) hi (by omega)
          rw [seg_getElem, seg_getElem, Nat.zero_add, Nat.zero_add] at this
          omega
      · by_cases h0 : i = n
        · subst h0; omega
        · have := p2 i n hi (by simp) (by omega)
          rw [seg_getElem, seg_getElem, Nat.zero_add, Nat.zero_add] at this
          omega
  · left
    refine ⟨fun h => p2 (hnod.2 h), ?_⟩
    generalize (mergeSort (fun i => l.getD i 0) 0 n) = r at *
    simp [p1]

example : (∀ z ∈ [7, -3, 5, 12, -1], (-2:Int)^63 < z ∧ z < 2^63) ∧
    ([7, -3, 5, 12, -1].map Int.natAbs).Nodup ∧
    ¬ ([7, -3, 5, 3, -1].map Int.natAbs).Nodup := by decide

/-- Without particles the function fails. -/
theorem C27_no_particles (debug : Bool) : getMinMaxId debug [] = .ok none := rfl

/-- The sort works in place on `array[0 .. n)`: it never changes an entry outside. -/
theorem C27_sort_in_bounds (a : Nat → Int) (n i : Nat) (hn : 0 < n) (hi : n ≤ i)
    (hok : (mergeSort a 0 (n - 1)).1 = 0) : (mergeSort a 0 (n - 1)).2 i = a i := by
  have := mergeSort_spec a 0 (n - 1)
  rw [Nat.zero_add] at this
  rcases this with ⟨-, -, -, h⟩ | ⟨h, -⟩
  · exact h i (by omega)
  · omega

example : ∃ (a : Nat → Int) (n : Nat), 1 < n ∧ (mergeSort a 0 (n - 1)).1 = 0 := by
  refine ⟨fun i => 5 - i, 3, by decide, ?_⟩
  have := mergeSort_spec (fun i => 5 - (i : Int)) 0 2
  rcases this with ⟨h, -⟩ | ⟨-, h⟩
  · exact h
  · exact absurd (by decide) h

/-! ### C28 -/

/-- `mn` and `mx` are the exact range of the values of `f` over `ps`. -/
def TightRange (ps : List Attr) (f : Attr → Int) (mn mx : Int) : Prop :=
  (∀ p ∈ ps, mn ≤ f p ∧ f p ≤ mx) ∧ (∃ p ∈ ps, f p = mn) ∧ (∃ p ∈ ps, f p = mx)

theorem TightRange.snoc {ps : List Attr} {f : Attr → Int} {mn mx : Int} (h : TightRange ps f mn mx)
    (p : Attr) : TightRange (ps ++ [p]) f (updMin mn (f p)) (updMax mx (f p)) := by
  obtain ⟨h1, ⟨a, ha, ea⟩, ⟨b, hb, eb⟩⟩ := h
  refine ⟨?_, ?_, ?_⟩
  · intro q hq
    rcases List.mem_append.1 hq with h | h
    · have := h1 q h
      have := updMin_le mn (f p)
      have := le_updMax mx (f p)
      omega
    · rw [List.mem_singleton] at h; subst h
      exact ⟨(updMin_le mn (f q)).2, (le_updMax mx (f q)).2⟩
  · unfold updMin; split
    · exact ⟨p, by simp, rfl⟩
    · exact ⟨a, by simp [ha], ea⟩
  · unfold updMax; split
    · exact ⟨p, by simp, rfl⟩
    · exact ⟨b, by simp [hb], eb⟩

theorem tight_single (p : Attr) (f : Attr → Int) : TightRange [p] f (f p) (f p) := by
  simp [TightRange]

theorem minMaxLoop_tight (f : Attr → Int) (qs ps : List Attr) (mn mx : Int)
    (h : TightRange ps f mn mx) :
    TightRange (ps ++ qs) f (minMaxLoop (qs.map f) mn mx).1 (minMaxLoop (qs.map f) mn mx).2 := by
  induction qs generalizing ps mn mx with
  | nil => simpa [minMaxLoop] using h
  | cons q qs ih =>
    simp only [List.map_cons, minMaxLoop]
    have := ih (ps ++ [q]) _ _ (h.snoc q)
    simpa using this

/-- The reported range of element ids bounds all values and is attained. -/
theorem C28_at_element_tight (ps : List Attr) (mn mx : Int)
    (h : minMaxAtElement ps = some (mn, mx)) : TightRange ps Attr.atElement mn mx := by
  match ps with
  | [] => cases h
  | p :: ps =>
    simp only [minMaxAtElement, Option.some.injEq] at h
    have := minMaxLoop_tight Attr.atElement ps [p] _ _ (tight_single p _)
    rw [h] at this
    simpa using this

example : minMaxAtElement [⟨0, 5, 1⟩, ⟨1, 3, 4⟩, ⟨2, 9, 2⟩] = some (3, 9) := rfl

/-- The reported range of turns bounds all values and is attained. -/
theorem C28_at_turn_tight (ps : List Attr) (mn mx : Int)
    (h : minMaxAtTurn ps = some (mn, mx)) : TightRange ps Attr.atTurn mn mx := by
  match ps with
  | [] => cases h
  | p :: ps =>
    simp only [minMaxAtTurn, Option.some.injEq] at h
    have := minMaxLoop_tight Attr.atTurn ps [p] _ _ (tight_single p _)
    rw [h] at this
    simpa using this

example : minMaxAtTurn [⟨0, 5, 1⟩, ⟨1, 3, 4⟩, ⟨2, 9, 2⟩] = some (1, 4) := rfl

/-- Absolute particle id. -/
def absId (p : Attr) : Int := p.id.natAbs

/-- All three ranges in one record are exact. -/
def TightRanges (ps : List Attr) (r : Ranges) : Prop :=
  TightRange ps absId r.minId r.maxId ∧ TightRange ps Attr.atElement r.minElem r.maxElem ∧
    TightRange ps Attr.atTurn r.minTurn r.maxTurn

/-- Attribute values a particle can have: `int64_t`, ids not `INT64_MIN`. -/
def AttrOk (p : Attr) : Prop :=
  (-2^63 < p.id ∧ p.id < 2^63) ∧ I64 p.atElement ∧ I64 p.atTurn

instance (p : Attr) : Decidable (AttrOk p) := by unfold AttrOk; infer_instance

theorem rangeLoop_tight (qs ps : List Attr) (r : Ranges) (h : TightRanges ps r)
    (hq : ∀ q ∈ qs, AttrOk q) : ∃ r', rangeLoop qs r = .ok r' ∧ TightRanges (ps ++ qs) r' := by
  induction qs generalizing ps r with
  | nil => exact ⟨r, rfl, by simpa using h⟩
  | cons q qs ih =>
    have h0 := hq q (by simp)
    simp only [rangeLoop]
    rw [absI_eq h0.1.1 h0.1.2, Res.ok_bind]
    have := ih (ps ++ [q])
      ⟨updMin r.minId (absId q), updMax r.maxId (absId q), updMin r.minElem q.atElement,
        updMax r.maxElem q.atElement, updMin r.minTurn q.atTurn, updMax r.maxTurn q.atTurn⟩
      ⟨h.1.snoc q, h.2.1.snoc q, h.2.2.snoc q⟩
      (fun x hx => hq x (List.mem_cons_of_mem _ hx))
    rw [List.append_assoc] at this
    exact this

/-- Merging an exact range of the particles seen so far with the exact range of one more set. -/
theorem TightRange.merge {ps qs : List Attr} {f : Attr → Int} {a b c d : Int}
    (h : TightRange ps f a b) (h' : TightRange qs f c d) :
    TightRange (ps ++ qs) f (updMin a c) (updMax b d) := by
  obtain ⟨h1, ⟨x, hx, ex⟩, ⟨y, hy, ey⟩⟩ := h
  obtain ⟨k1, ⟨x', hx', ex'⟩, ⟨y', hy', ey'⟩⟩ := h'
  refine ⟨?_, ?_, ?_⟩
  · intro q hq
    have m1 := updMin_le a c
    have m2 := le_updMax b d
    rcases List.mem_append.1 hq with h | h
    · have := h1 q h; omega
    · have := k1 q h; omega
  · unfold updMin; split
    · exact ⟨x', by simp [hx'], ex'⟩
    · exact ⟨x, by simp [hx], ex⟩
  · unfold updMax; split
    · exact ⟨y', by simp [hy'], ey'⟩
    · exact ⟨y, by simp [hy], ey⟩

theorem findMinMax_local (s : List Attr) (hne : s ≠ []) (hs : ∀ q ∈ s, AttrOk q) :
    ∃ r, TightRanges s r ∧ ∀ cur, findMinMax s cur = .ok (0,
      ⟨updMin cur.minId r.minId, updMax cur.maxId r.maxId,
      updMin cur.minElem r.minElem, updMax cur.maxElem r.maxElem,
      updMin cur.minTurn r.minTurn, updMax cur.maxTurn r.maxTurn⟩) := by
  match s with
  | [] => exact absurd rfl hne
  | p :: ps =>
    have h0 := hs p (by simp)
    obtain ⟨r, h1, h2⟩ := rangeLoop_tight ps [p]
      ⟨absId p, absId p, p.atElement, p.atElement, p.atTurn, p.atTurn⟩
      ⟨tight_single p _, tight_single p _, tight_single p _⟩
      (fun x hx => hs x (List.mem_cons_of_mem _ hx))
    refine ⟨r, by simpa using h2, fun cur => ?_⟩
    simp only [findMinMax]
    rw [absI_eq h0.1.1 h0.1.2, Res.ok_bind]
    unfold absId at h1
    rw [h1, Res.ok_bind]
    rfl

theorem tight_mem_bound {ps : List Attr} {f : Attr → Int} {mn mx : Int} {lo hi : Int}
    (h : TightRange ps f mn mx) (hb : ∀ p ∈ ps, lo ≤ f p ∧ f p ≤ hi) :
    updMin hi mn = mn ∧ updMax lo mx = mx := by
  obtain ⟨-, ⟨x, hx, ex⟩, ⟨y, hy, ey⟩⟩ := h
  have := hb x hx
  have := hb y hy
  unfold updMin updMax
  constructor <;> split <;> omega

theorem tightRanges_init {ps : List Attr} {r : Ranges} (h : TightRanges ps r)
    (hs : ∀ q ∈ ps, AttrOk q) :
    (⟨updMin initRanges.minId r.minId, updMax initRanges.maxId r.maxId,
      updMin initRanges.minElem r.minElem, updMax initRanges.maxElem r.maxElem,
      updMin initRanges.minTurn r.minTurn, updMax initRanges.maxTurn r.maxTurn⟩ : Ranges) = r := by
  have a := tight_mem_bound (lo := -2^63) (hi := 2^63 - 1) h.1 (fun p hp => by
    have := (hs p hp).1; unfold absId; omega)
  have b := tight_mem_bound (lo := -2^63) (hi := 2^63 - 1) h.2.1 (fun p hp => by
    have := (hs p hp).2.1; unfold I64 at this; omega)
  have c := tight_mem_bound (lo := -2^63) (hi := 2^63 - 1) h.2.2 (fun p hp => by
    have := (hs p hp).2.2; unfold I64 at this; omega)
  simp only [initRanges]
  rw [a.1, a.2, b.1, b.2, c.1, c.2]

/-- `Particles_get_min_max_attributes` reports the exact ranges of the absolute ids, the element ids
and the turns of every non-empty particle set. -/
theorem C28_attributes_tight (ps : List Attr) (hne : ps ≠ []) (hs : ∀ q ∈ ps, AttrOk q) :
    ∃ r, getMinMaxAttributes ps = .ok (0, r) ∧ TightRanges ps r := by
  obtain ⟨r, h1, h2⟩ := findMinMax_local ps hne hs
  refine ⟨r, ?_, h1⟩
  unfold getMinMaxAttributes
  rw [h2 initRanges, tightRanges_init h1 hs]

example : ∀ q ∈ [(⟨-4, 5, 1⟩ : Attr), ⟨1, 3, 4⟩, ⟨2, 9, 2⟩], AttrOk q := by decide

theorem findMinMaxSets_tight (ss : List (List Attr)) (done : List Attr) (found : Nat) (r : Ranges)
    (hf : found ≠ 0) (h : TightRanges done r)
    (hne : ∀ s ∈ ss, s ≠ []) (hs : ∀ s ∈ ss, ∀ q ∈ s, AttrOk q) :
    ∃ r', findMinMaxSets ss found r = .ok (0, r') ∧ TightRanges (done ++ ss.flatten) r' := by
  induction ss generalizing done found r with
  | nil => exact ⟨r, by simp [findMinMaxSets, hf], by simpa using h⟩
  | cons s ss ih =>
    obtain ⟨q, h1, h2⟩ := findMinMax_local s (hne s (by simp)) (hs s (by simp))
    simp only [findMinMaxSets]
    rw [h2 r, Res.ok_bind, if_pos rfl]
    have := ih (done ++ s) (found + 1)
      ⟨updMin r.minId q.minId, updMax r.maxId q.maxId, updMin r.minElem q.minElem,
        updMax r.maxElem q.maxElem, updMin r.minTurn q.minTurn, updMax r.maxTurn q.maxTurn⟩ (by omega) ⟨h.1.merge h1.1, h.2.1.merge h1.2.1,
      h.2.2.merge h1.2.2⟩ (fun x hx => hne x (List.mem_cons_of_mem _ hx))
      (fun x hx => hs x (List.mem_cons_of_mem _ hx))
    simpa using this

/-- Over all particle sets of a buffer (all non-empty, at least one) the reported ranges are exact for
the union of the sets. -/
theorem C28_buffer_attributes_tight (ss : List (List Attr)) (h0 : ss ≠ [])
    (hne : ∀ s ∈ ss, s ≠ []) (hs : ∀ s ∈ ss, ∀ q ∈ s, AttrOk q) :
    ∃ r, bufferGetMinMaxAttributes ss = .ok (0, r) ∧ TightRanges ss.flatten r := by
  match ss with
  | [] => exact absurd rfl h0
  | s :: ss =>
    obtain ⟨q, h1, h2⟩ := findMinMax_local s (hne s (by simp)) (hs s (by simp))
    simp only [bufferGetMinMaxAttributes, findMinMaxSets]
    rw [h2 initRanges, Res.ok_bind, if_pos rfl, tightRanges_init h1 (hs s (by simp))]
    have := findMinMaxSets_tight ss s 1 q (by omega) h1
      (fun x hx => hne x (List.mem_cons_of_mem _ hx)) (fun x hx => hs x (List.mem_cons_of_mem _ hx))
    simpa using this

example : ∀ s ∈ [[(⟨-4, 5, 1⟩ : Attr), ⟨1, 3, 4⟩], [⟨2, 9, 2⟩]], s ≠ [] ∧ ∀ q ∈ s, AttrOk q := by
  decide

/-- A buffer without particle sets, and an empty set anywhere in the buffer, are reported as failure; so
are empty sets by all range functions. -/
theorem C28_nothing_to_report (pre post : List (List Attr)) (hne : ∀ s ∈ pre, s ≠ [])
    (hs : ∀ s ∈ pre, ∀ q ∈ s, AttrOk q) :
    bufferGetMinMaxAttributes [] = .ok (-1, initRanges) ∧
    (∃ r, bufferGetMinMaxAttributes (pre ++ [] :: post) = .ok (-1, r)) ∧
    getMinMaxAttributes [] = .ok (-1, initRanges) ∧
    minMaxAtElement [] = none ∧ minMaxAtTurn [] = none ∧ minMaxIdNoDup [] = none := by
  refine ⟨rfl, ?_, rfl, rfl, rfl, rfl⟩
  unfold bufferGetMinMaxAttributes
  generalize (0 : Nat) = n
  generalize initRanges = cur
  induction pre generalizing n cur with
  | nil => exact ⟨cur, rfl⟩
  | cons s pre ih =>
    obtain ⟨q, h1, h2⟩ := findMinMax_local s (hne s (by simp)) (hs s (by simp))
    simp only [List.cons_append, findMinMaxSets]
    rw [h2 cur, Res.ok_bind, if_pos rfl]
    exact ih (fun x hx => hne x (List.mem_cons_of_mem _ hx))
      (fun x hx => hs x (List.mem_cons_of_mem _ hx)) _ _

/-- The range reported by the id function without duplicate check is *not* the range of the ids: it
starts from the element id of the first particle. -/
theorem C28_no_duplicate_check_violated :
    ∃ ps mn mx, (∀ p ∈ ps, 0 ≤ p.id ∧ 0 ≤ p.atElement ∧ 0 ≤ p.atTurn) ∧
      minMaxIdNoDup ps = some (mn, mx) ∧ ¬ TightRange ps Attr.id mn mx := by
  refine ⟨[⟨5, 0, 0⟩, ⟨6, 0, 0⟩], 0, 6, by decide, rfl, ?_⟩
  rintro ⟨-, ⟨p, hp, e⟩, -⟩
  simp at hp
  rcases hp with rfl | rfl <;> simp at e

/-- The range reported by the id function without duplicate check is exact as soon as the element id of
the first particle equals its id. -/
theorem C28_no_duplicate_check_partial (p : Attr) (ps : List Attr) (mn mx : Int)
    (hp : p.atElement = p.id) (h : minMaxIdNoDup (p :: ps) = some (mn, mx)) :
    TightRange (p :: ps) Attr.id mn mx := by
  simp only [minMaxIdNoDup, Option.some.injEq, hp] at h
  have := minMaxLoop_tight Attr.id ps [p] _ _ (tight_single p _)
  rw [h] at this
  simpa using this

example : minMaxIdNoDup [⟨4, 4, 1⟩, ⟨1, 3, 4⟩, ⟨7, 9, 2⟩] = some (1, 7) := rfl

/-! ### C29 -/

/-- What a copy of `n` particles from index `s` of `src` to index `d` of `dst` must produce: every
field of every particle of the destination range comes from the source range, everything else is
unchanged. -/
def IsCopy {V : Type} (dst src res : PSet V) (s d n : Int) : Prop :=
  res.num = dst.num ∧
  (∀ f : Field, ∀ k : Nat, (k : Int) < n → res.data f (d + k).toNat = src.data f (s + k).toNat) ∧
  (∀ f : Field, ∀ i : Nat, (i : Int) < d ∨ d + n ≤ i → res.data f i = dst.data f i)

theorem foldl_copyField {V : Type} (src : PSet V) (s d n : Nat) (fs : List Field) (dst : PSet V) :
    (fs.foldl (fun p f => p.copyField src s d n f) dst).num = dst.num ∧
    ∀ g i, (fs.foldl (fun p f => p.copyField src s d n f) dst).data g i =
      if g ∈ fs ∧ d ≤ i ∧ i < d + n then src.data g (s + (i - d)) else dst.data g i := by
  induction fs generalizing dst with
  | nil => simp
  | cons f fs ih =>
    simp only [List.foldl_cons]
    obtain ⟨h1, h2⟩ := ih (dst.copyField src s d n f)
    refine ⟨by rw [h1]; rfl, ?_⟩
    intro g i
    rw [h2 g i]
    by_cases hg : g ∈ fs
    · by_cases hi : d ≤ i ∧ i < d + n
      · simp [hg, hi]
      · rw [if_neg (fun h => hi h.2), if_neg (fun h => hi h.2)]
        simp only [PSet.copyField]
        rw [if_neg (fun h => hi h.2)]
    · rw [if_neg (fun h => hg h.1)]
      simp only [PSet.copyField, List.mem_cons, hg, or_false]
      by_cases hgf : g = f
      · subst hgf; rfl
      · simp [hgf]

theorem isCopy_foldl {V : Type} (dst src : PSet V) (s d n : Int) (fs : List Field)
    (hfs : ∀ f, f ∈ fs) (hs : 0 ≤ s) (hd : 0 ≤ d) (hn : 0 ≤ n) :
    IsCopy dst src (fs.foldl (fun p f => p.copyField src s.toNat d.toNat n.toNat f) dst) s d n := by
  obtain ⟨h1, h2⟩ := foldl_copyField src s.toNat d.toNat n.toNat fs dst
  refine ⟨h1, ?_, ?_⟩
  · intro f k hk
    rw [h2, if_pos ⟨hfs f, by omega, by omega⟩]
    congr 1; omega
  · intro f i hi
    rw [h2, if_neg]
    rintro ⟨-, ha, hb⟩
    omega

theorem rangeFields_all (f : Field) : f ∈ rangeFields := by cases f <;> decide
theorem singleFields_all (f : Field) : f ∈ singleFields := by cases f <;> decide

/-- A range copy whose destination start lies inside the destination (or is not redirected because the
source range would not fit either) succeeds exactly if the range is inside source and destination;
then it is exactly the requested copy, and on failure nothing is changed.  What is missing: the other
destination starts, see `C29_violated`. -/
theorem C29_copy_range_partial {V : Type} (dst src : PSet V) (s e d : Int)
    (hs : -2^62 ≤ s) (he : e < 2^62) (hd : d < 2^62)
    (hredirect : 0 ≤ d ∧ (d < dst.num ∨ dst.num ≤ e)) :
    ∃ res, (copyRange false dst src s e d = .ok (SUCCESS, res) ∧
        (0 ≤ s ∧ s ≤ e ∧ e ≤ src.num ∧ d + (e - s) ≤ dst.num) ∧ IsCopy dst src res s d (e - s)) ∨
      (copyRange false dst src s e d = .ok (FAILURE, dst) ∧
        ¬ (0 ≤ s ∧ s ≤ e ∧ e ≤ src.num ∧ d + (e - s) ≤ dst.num)) := by
  unfold copyRange
  have hnored : ¬ ((d < 0 ∨ d ≥ dst.num) ∧ e < dst.num) := by omega
  by_cases hse : s ≤ e
  · rw [if_pos hse, i64_ok (by unfold I64 at *; omega), Res.ok_bind]
    simp only [if_neg hnored]
    by_cases h : 0 ≤ s ∧ e ≤ src.num
    · rw [if_pos ⟨by trivial, by omega, by omega, by omega, by omega⟩,
        i64_ok (by unfold I64 at *; omega), Res.ok_bind]
      by_cases h2 : d + (e - s) ≤ dst.num
      · rw [if_pos h2]
        exact ⟨_, Or.inl ⟨rfl, ⟨h.1, hse, h.2, h2⟩, isCopy_foldl _ _ _ _ _ _ rangeFields_all
          (by omega) (by omega) (by omega)⟩⟩
      · rw [if_neg h2]
        exact ⟨dst, Or.inr ⟨rfl, fun h => h2 h.2.2.2⟩⟩
    · rw [if_neg (by omega)]
      exact ⟨dst, Or.inr ⟨rfl, fun h' => h ⟨h'.1, h'.2.2.1⟩⟩⟩
  · rw [if_neg hse, Res.ok_bind]
    simp only [if_neg hnored]
    rw [if_neg (by omega)]
    exact ⟨dst, Or.inr ⟨rfl, fun h => hse h.2.1⟩⟩

example : ∃ res, copyRange false (⟨4, fun _ i => i⟩ : PSet Nat) ⟨3, fun _ i => 100 + i⟩ 1 3 2 =
    .ok (SUCCESS, res) ∧ res.data .px 3 = 102 ∧ res.data .px 1 = 1 := ⟨_, rfl, rfl, rfl⟩

/-- Copying one particle to a position inside the destination succeeds exactly if the source position
is inside the source; then exactly that particle is overwritten, in all its fields. -/
theorem C29_copy_single_partial {V : Type} (dst src : PSet V) (d s : Int)
    (hd : 0 ≤ d ∧ d < dst.num) :
    (0 ≤ s ∧ s < src.num ∧ (copySingle false dst d src s).1 = SUCCESS ∧
      IsCopy dst src (copySingle false dst d src s).2 s d 1) ∨
    (¬ (0 ≤ s ∧ s < src.num) ∧ copySingle false dst d src s = (FAILURE, dst)) := by
  unfold copySingle
  have hno : ¬ ((d < 0 ∨ d > dst.num) ∧ s < dst.num) := by omega
  simp only [if_neg hno]
  by_cases h : 0 ≤ s ∧ s < src.num
  · rw [if_pos ⟨by trivial, h.1, h.2, hd.1, hd.2⟩]
    left
    exact ⟨h.1, h.2, rfl, isCopy_foldl _ _ _ _ 1 _ singleFields_all h.1 hd.1 (by omega)⟩
  · rw [if_neg (by omega)]
    right
    exact ⟨h, rfl⟩

example : (copySingle false (⟨4, fun _ i => i⟩ : PSet Nat) 2 ⟨3, fun _ i => 100 + i⟩ 1).2.data .state 2
    = 101 := rfl

/-- Copying a whole particle set succeeds exactly for two different, non-empty sets of the same size,
and makes every field of every particle equal. -/
theorem C29_copy {V : Type} (same : Bool) (dst src : PSet V)
    (h1 : 0 ≤ src.num ∧ src.num < 2^62) :
    (∃ res, copy same dst src = .ok (SUCCESS, res) ∧ same = false ∧ 0 < src.num ∧
        src.num = dst.num ∧ ∀ f : Field, ∀ i : Nat, (i : Int) < dst.num → res.data f i = src.data f i) ∨
      (copy same dst src = .ok (FAILURE, dst) ∧ ¬ (same = false ∧ 0 < src.num ∧ src.num = dst.num)) := by
  unfold copy
  by_cases h : src.num > 0 ∧ src.num = dst.num
  · rw [if_pos h]
    cases same with
    | true =>
      right
      unfold copyRange
      rw [if_pos (by omega), i64_ok (by unfold I64; omega), Res.ok_bind]
      simp only
      rw [if_neg (by simp)]
      exact ⟨rfl, by simp⟩
    | false =>
      left
      rcases C29_copy_range_partial dst src 0 src.num 0 (by omega)
        (by omega) (by omega) (by omega) with
        ⟨res, h2 | h2⟩
      · refine ⟨res, h2.1, rfl, h.1, h.2, ?_⟩
        intro f i hi
        have := h2.2.2.2.1 f i (by omega)
        simpa using this
      · omega
  · rw [if_neg h]
    right
    exact ⟨rfl, by omega⟩

example : (⟨3, fun _ i => i⟩ : PSet Nat).num = (⟨3, fun _ i => 100 + i⟩ : PSet Nat).num := rfl

/-- A copy to a position outside the destination can succeed, and then overwrites other particles: both
copy functions silently replace an out-of-range destination index by the source index. -/
theorem C29_violated :
    (∃ (dst src res : PSet Nat), dst.num = 4 ∧ src.num = 4 ∧
      copyRange false dst src 0 2 7 = .ok (SUCCESS, res) ∧ res.data .x 0 ≠ dst.data .x 0) ∧
    (∃ (dst src : PSet Nat), dst.num = 4 ∧ src.num = 4 ∧
      (copySingle false dst (-3) src 1).1 = SUCCESS ∧
      (copySingle false dst (-3) src 1).2.data .x 1 ≠ dst.data .x 1) := by
  refine ⟨⟨⟨4, fun _ _ => 0⟩, ⟨4, fun _ _ => 1⟩, _, rfl, rfl, rfl, by decide⟩,
    ⟨⟨4, fun _ _ => 0⟩, ⟨4, fun _ _ => 1⟩, rfl, rfl, by decide, by decide⟩⟩

end SixTrack
