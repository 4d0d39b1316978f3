import Verif.OldJob
import Verif.Props.ParticleSets
import Verif.Props.TrackJob
import Verif.Props.StoredBuffers
import Mathlib.Data.List.Sort

/-!
# C89: making and resetting the older track job
-/

namespace SixTrack
namespace OldJob
open Particles ParticleSets
open TrackJob (Ref World)

/-- The sets a job should hold: those of the asked objects that are particle sets, each once and in the order of the
buffer, with the numbers of their particles. -/
structure Holds (objs : List (Option (List Attr))) (idx : List Nat) (s : Sets) : Prop where
  sorted : s.indices.Pairwise (· < ·)
  mem : ∀ i, i ∈ s.indices ↔ i ∈ idx ∧ ∃ ps, objs[i]? = some (some ps)
  nums : s.nums.length = s.indices.length ∧ ∀ (k i : Nat) (ps : List Attr), s.indices[k]? = some i →
    objs[i]? = some (some ps) → s.nums[k]? = some ps.length
  total : s.total = (chosen objs s.indices).length

theorem accepted_iff {objs : List (Option (List Attr))} {i : Nat} :
    accepted objs i = true ↔ ∃ ps, objs[i]? = some (some ps) := by
  unfold accepted
  split
  · rename_i ps h; simp [h]
  · rename_i h
    simp only [Bool.false_eq_true, false_iff, not_exists]
    intro ps hp; exact h ps hp

theorem countOf_eq (objs : List (Option (List Attr))) (i : Nat) :
    countOf objs i = (particlesOf (objs[i]?.join)).length := by
  unfold countOf
  split
  · rename_i ps h; simp [h, particlesOf]
  · rename_i h
    match he : objs[i]? with
    | none => simp [particlesOf]
    | some none => simp [particlesOf]
    | some (some ps) => exact absurd he (h ps)

theorem sum_countOf (objs : List (Option (List Attr))) (is : List Nat) :
    (is.map (countOf objs)).sum = (chosen objs is).length := by
  induction is with
  | nil => rfl
  | cons i is ih => simp [chosen, countOf_eq] at ih ⊢; omega

theorem setIndices_spec (s : Sets) (objs : List (Option (List Attr))) (idx : List Nat) :
    ∃ s', setIndices s (some objs) idx = .ok s' ∧
      s'.indices.Pairwise (· < ·) ∧ (∀ i, i ∈ s'.indices ↔ i ∈ idx ∧ ∃ ps, objs[i]? = some (some ps)) ∧
      s'.nums = s'.indices.map (countOf objs) ∧
      s'.total = if s'.indices = [] then s.total else (chosen objs s'.indices).length := by
  refine ⟨_, rfl, sortedIdx_pairwise _, fun i => ?_, rfl, ?_⟩
  · rw [show unique (sortIdx (idx.filter (accepted objs))) = sortedIdx (idx.filter (accepted objs)) from rfl,
      mem_sortedIdx, List.mem_filter, accepted_iff]
  · simp only
    split
    · rfl
    · exact sum_countOf _ _

theorem setIndices_holds {s : Sets} {objs : List (Option (List Attr))} {idx : List Nat} {i : Nat} {ps : List Attr}
    (hi : i ∈ idx) (hp : objs[i]? = some (some ps)) :
    ∃ s', setIndices s (some objs) idx = .ok s' ∧ Holds objs idx s' ∧ s'.indices ≠ [] := by
  obtain ⟨s', h, h1, h2, h3, h4⟩ := setIndices_spec s objs idx
  have hne : s'.indices ≠ [] := List.ne_nil_of_mem ((h2 i).2 ⟨hi, ps, hp⟩)
  refine ⟨s', h, ⟨h1, h2, ⟨by simp [h3], ?_⟩, by rw [h4, if_neg hne]⟩, hne⟩
  intro k i qs hk hq
  rw [h3, List.getElem?_map, hk]
  simp [countOf, hq]

/-! ### ranges -/

theorem view_ne {o : Option (List Attr)} {ps : List Attr} (h : view o = some ps) : ps ≠ [] ∧ o = some ps := by
  match o with
  | none => cases h
  | some [] => cases h
  | some (p :: qs) => cases h; exact ⟨by simp, rfl⟩

theorem view_get {objs : List (Option (List Attr))} {i : Nat} {ps : List Attr} :
    (objs.map view)[i]? = some (some ps) ↔ objs[i]? = some (some ps) ∧ ps ≠ [] := by
  rw [List.getElem?_map]
  constructor
  · intro h
    obtain ⟨o, h1, h2⟩ := Option.map_eq_some_iff.1 h
    obtain ⟨h3, h4⟩ := view_ne h2
    exact ⟨by rw [h1, h4], h3⟩
  · rintro ⟨h1, h2⟩
    rw [h1]
    match ps, h2 with
    | p :: ps, _ => rfl

theorem chosen_view (objs : List (Option (List Attr))) (is : List Nat) :
    chosen (objs.map view) is = chosen objs is := by
  unfold chosen
  congr 1
  funext i
  rw [List.getElem?_map]
  match objs[i]? with
  | none => rfl
  | some none => rfl
  | some (some []) => rfl
  | some (some (p :: ps)) => rfl

theorem findRangesOf_tight {objs : List (Option (List Attr))} {s : Sets} (hs : s.indices.Pairwise (· < ·))
    (hne : s.indices ≠ []) (hall : ∀ i ∈ s.indices, ∃ ps, objs[i]? = some (some ps) ∧ ps ≠ [])
    (hok : ∀ q ∈ chosen objs s.indices, AttrOk q) :
    ∃ r, findRangesOf objs s = .ok (0, r) ∧ TightRanges (chosen objs s.indices) r := by
  obtain ⟨i, hi⟩ := List.exists_mem_of_ne_nil _ hne
  obtain ⟨ps, hp, hps⟩ := hall i hi
  obtain ⟨-, hc⟩ := C74_chosen_partial ⟨[0], [0], [0], 0, 0, 0⟩ (objs.map view) s.indices false i ps hi
    (view_get.2 ⟨hp, hps⟩)
  generalize (choose ⟨[0], [0], [0], 0, 0, 0⟩ (objs.map view) s.indices false).2 = c at hc
  have heq : c.indices = s.indices := by
    have hperm : c.indices.Perm s.indices := by
      refine (List.perm_ext_iff_of_nodup (hc.sorted.imp Nat.ne_of_lt) (hs.imp Nat.ne_of_lt)).2 fun k => ?_
      rw [hc.mem]
      constructor
      · exact fun h => h.1
      · intro h
        obtain ⟨qs, h1, h2⟩ := hall k h
        exact ⟨h, qs, view_get.2 ⟨h1, h2⟩⟩
    exact hperm.eq_of_pairwise (fun a b _ _ h1 h2 => absurd h1 (by omega)) hc.sorted hs
  obtain ⟨r, h1, h2⟩ := C74_ranges_tight (objs.map view) s.indices c hc (by rw [heq]; exact hne)
    (fun k qs hk => (view_get.1 hk).2) (by rw [heq, chosen_view]; exact hok)
  rw [heq, chosen_view] at h2
  refine ⟨r, ?_, h2⟩
  rw [← h1]
  unfold findRangesOf findRanges
  rw [heq]

/-- if ranges are found then every set has particles -/
theorem findRangesOf_ok {objs : List (Option (List Attr))} {s : Sets} {r : Particles.Ranges}
    (h : findRangesOf objs s = .ok (0, r)) : ∀ i ∈ s.indices, ∀ ps, objs[i]? = some (some ps) → ps ≠ [] := by
  intro i hi ps hp hnil
  subst hnil
  have : (objs.map view)[i]? = some none := by rw [List.getElem?_map, hp]; rfl
  exact C74_ranges_refused (objs.map view) _ i hi this _ h rfl

/-! ### what a reset does -/

/-- the newer job to which a cleared job corresponds -/
def blank : TrackJob.Job := clearSide (Job.new 0).side

theorem clearSide_eq (t : TrackJob.Job) : clearSide t = blank := rfl

/-- A reset with sets that have particles is one of the newer job without an output buffer. -/
theorem doReset_eq {j : Job} {w : World} {objs : List (Option (List Attr))} {given : Option Ref} {untilTurn : Nat}
    {fresh : Nat → Nat} {r : Particles.Ranges} (hside : j.side = blank) (hb : j.bound = false)
    (hown : w.own = []) (hl : w.lattice ≠ []) (hs : j.sets.indices ≠ [])
    (hr : findRangesOf objs j.sets = .ok (0, r)) :
    doReset j w objs given untilTurn fresh =
      (TrackJob.reset blank w (toSide r) given untilTurn false false fresh >>= fun y =>
        .ok (decide (y.1 = SUCCESS), { j with side := y.2.1, bound := true }, y.2.2)) := by
  have hw : { w with own := [] } = w := by rw [← hown]
  have hc : ¬ (given ≠ none ∧ given = (blank).out) := fun h => h.1 h.2
  obtain ⟨es, n, -, he⟩ := TrackJob.prepareElements_ok (j := { blank with rng := toSide r }) (w := w)
    (samePB := false) hl
  unfold doReset TrackJob.reset
  rw [hr, Res.ok_bind]
  simp only [if_neg hc, hw, hside, hb, Bool.false_eq_true, if_false]
  have he' : TrackJob.prepareElements { ({ blank.clearOutput with numMonitors := 0, numElements := 0 } :
      TrackJob.Job) with rng := toSide r } w false = _ := he
  rw [he, he']
  simp only [outputPart, if_neg hs]
  rfl

theorem reset_eq {j : Job} {w : World} {objs : List (Option (List Attr))} {idx : List Nat} {given : Option Ref}
    {untilTurn : Nat} {fresh : Nat → Nat} {st : StoredBuf.Job} {s : Sets}
    (hst : j.stored.clearOld = .ok st) (hg : given ≠ some .own)
    (hs : chooseSets j.sets.default objs idx = .ok s) :
    reset j w objs idx given untilTurn fresh =
      doReset ⟨s, blank, st, j.lists.clearOld, false⟩ { w with own := [] } objs given untilTurn fresh := by
  unfold reset Job.clear
  rw [hst, Res.ok_bind, Res.pure_eq, Res.ok_bind]
  simp only [hs, Res.ok_bind, if_neg hg]
  rfl

/-- What a reset does not undertake without: the stored buffers can be freed, the output buffer is not its own. -/
theorem reset_ok {j : Job} {w : World} {objs : List (Option (List Attr))} {idx : List Nat} {given : Option Ref}
    {untilTurn : Nat} {fresh : Nat → Nat} {x : Bool × Job × World}
    (h : reset j w objs idx given untilTurn fresh = .ok x) :
    ∃ st s, j.stored.clearOld = .ok st ∧ given ≠ some .own ∧ chooseSets j.sets.default objs idx = .ok s ∧
      doReset ⟨s, blank, st, j.lists.clearOld, false⟩ { w with own := [] } objs given untilTurn fresh = .ok x := by
  unfold reset Job.clear at h
  obtain ⟨c, h1, h⟩ := Res.bind_eq_ok.1 h
  obtain ⟨st, h2, h1⟩ := Res.bind_eq_ok.1 h1
  rw [Res.pure_eq, Res.ok_inj] at h1
  subst h1
  obtain ⟨s, h3, h⟩ := Res.bind_eq_ok.1 h
  split at h
  · cases h
  · rename_i hg
    exact ⟨st, s, h2, hg, h3, h⟩

/-- what comes out of a reset, whether it succeeds or not -/
theorem doReset_keeps {j : Job} {w : World} {objs : List (Option (List Attr))} {given : Option Ref}
    {untilTurn : Nat} {fresh : Nat → Nat} {x : Bool × Job × World}
    (h : doReset j w objs given untilTurn fresh = .ok x) :
    x.2.1.sets = j.sets ∧ x.2.1.stored = j.stored ∧ x.2.1.lists = j.lists ∧
      (x.1 = true → ∃ r, findRangesOf objs j.sets = .ok (0, r) ∧ w.lattice ≠ []) := by
  unfold doReset at h
  obtain ⟨r, h1, h⟩ := Res.bind_eq_ok.1 h
  split at h
  · rename_i hr
    simp only at h
    split at h
    · rename_i hx
      obtain ⟨y, h2, h⟩ := Res.bind_eq_ok.1 h
      rw [Res.pure_eq, Res.ok_inj] at h
      subst h
      refine ⟨rfl, rfl, rfl, fun _ => ⟨r.2, ?_, ?_⟩⟩
      · rw [h1]; congr 1; exact Prod.ext hr rfl
      · intro hl
        unfold TrackJob.prepareElements at hx
        rw [hl, if_neg (by simp)] at hx
        exact absurd hx (by decide : FAILURE ≠ SUCCESS)
    · rw [Res.pure_eq, Res.ok_inj] at h
      subst h
      exact ⟨rfl, rfl, rfl, fun hc => by cases hc⟩
  · rw [Res.pure_eq, Res.ok_inj] at h
    subst h
    exact ⟨rfl, rfl, rfl, fun hc => by cases hc⟩

theorem Holds.mem_chosen {objs : List (Option (List Attr))} {idx : List Nat} {s : Sets} (h : Holds objs idx s)
    (q : Attr) : q ∈ chosen objs s.indices ↔ q ∈ chosen objs idx := by
  unfold chosen
  simp only [List.mem_flatMap]
  constructor
  · rintro ⟨i, hi, hq⟩
    exact ⟨i, ((h.mem i).1 hi).1, hq⟩
  · rintro ⟨i, hi, hq⟩
    match ho : objs[i]? with
    | none => rw [ho] at hq; cases hq
    | some none => rw [ho] at hq; cases hq
    | some (some ps) => exact ⟨i, (h.mem i).2 ⟨hi, ps, ho⟩, hq⟩

theorem tight_congr {ps qs : List Attr} (h : ∀ q, q ∈ ps ↔ q ∈ qs) {r : Particles.Ranges} :
    TightRanges ps r ↔ TightRanges qs r := by
  simp only [TightRanges, TightRange, h]

/-- The objects a job is asked for are usable: one of them is a particle set, and those that are sets have
particles, with possible attributes. -/
structure Askable (objs : List (Option (List Attr))) (idx : List Nat) : Prop where
  some : ∃ i ∈ idx, ∃ ps, objs[i]? = .some (.some ps)
  full : ∀ i ∈ idx, ∀ ps, objs[i]? = .some (.some ps) → ps ≠ []
  attr : ∀ q ∈ chosen objs idx, AttrOk q

theorem Askable.ranges {objs : List (Option (List Attr))} {idx : List Nat} (h : Askable objs idx) {s : Sets}
    (hs : Holds objs idx s) : s.indices ≠ [] ∧
      ∃ r, findRangesOf objs s = .ok (0, r) ∧ TightRanges (chosen objs idx) r := by
  obtain ⟨i, hi, ps, hp⟩ := h.some
  have hne : s.indices ≠ [] := List.ne_nil_of_mem ((hs.mem i).2 ⟨hi, ps, hp⟩)
  obtain ⟨r, h1, h2⟩ := findRangesOf_tight (objs := objs) hs.sorted hne
    (fun k hk => by
      obtain ⟨a, qs, b⟩ := (hs.mem k).1 hk
      exact ⟨qs, b, h.full k a qs b⟩)
    (fun q hq => h.attr q ((hs.mem_chosen q).1 hq))
  exact ⟨hne, r, h1, (tight_congr (fun q => hs.mem_chosen q)).1 h2⟩

/-- A reset of an askable choice is one of the newer job. -/
theorem reset_new {j : Job} {w : World} {objs : List (Option (List Attr))} {idx : List Nat} {given : Option Ref}
    {untilTurn : Nat} {fresh : Nat → Nat} {st : StoredBuf.Job} (ha : Askable objs idx)
    (hst : j.stored.clearOld = .ok st) (hg : given ≠ some .own) (hl : w.lattice ≠ []) :
    ∃ s r, Holds objs idx s ∧ TightRanges (chosen objs idx) r ∧
      setIndices j.sets.default (some objs) idx = .ok s ∧
      reset j w objs idx given untilTurn fresh =
      (TrackJob.reset blank { w with own := [] } (toSide r) given untilTurn false false fresh >>= fun y =>
        .ok (decide (y.1 = SUCCESS), ⟨s, y.2.1, st, j.lists.clearOld, true⟩, y.2.2)) := by
  obtain ⟨i, hi, ps, hp⟩ := ha.some
  obtain ⟨s, h1, h2, h3⟩ := setIndices_holds (s := j.sets.default) hi hp
  obtain ⟨-, r, h4, h5⟩ := ha.ranges h2
  refine ⟨s, r, h2, h5, h1, ?_⟩
  rw [reset_eq hst hg (s := s) (by unfold chooseSets; rw [if_pos (List.ne_nil_of_mem hi), h1])]
  exact doReset_eq (j := ⟨s, blank, st, j.lists.clearOld, false⟩) rfl rfl rfl hl h3 h4

end OldJob

open Particles ParticleSets OldJob
open TrackJob (Ref World)

/-- **C89 (the sets)**: after a reset, whether it succeeds or not, that has been asked for a particle set of the
buffer, the job holds exactly the asked sets of the buffer, with their numbers of particles. -/
theorem C89_sets {j : OldJob.Job} {w : World} {objs : List (Option (List Attr))} {idx : List Nat}
    {given : Option Ref} {untilTurn : Nat} {fresh : Nat → Nat} {x : Bool × OldJob.Job × World}
    (h : OldJob.reset j w objs idx given untilTurn fresh = .ok x) (i : Nat) (ps : List Attr) (hi : i ∈ idx)
    (hp : objs[i]? = some (some ps)) : Holds objs idx x.2.1.sets := by
  obtain ⟨st, s, -, -, h3, h4⟩ := reset_ok h
  obtain ⟨s', g1, g2, -⟩ := setIndices_holds (s := j.sets.default) hi hp
  unfold chooseSets at h3
  rw [if_pos (List.ne_nil_of_mem hi), g1, Res.ok_inj] at h3
  subst h3
  rw [(doReset_keeps h4).1]
  exact g2

/-- **C89 (when a reset succeeds)**: with askable sets, usable elements, and an output buffer that is none or one of
the caller, a reset succeeds exactly if no monitor stores anything or every inactive monitor is followed by an active
one. -/
theorem C89_succeeds {j : OldJob.Job} {w : World} {objs : List (Option (List Attr))} {idx : List Nat}
    {given : Option Ref} {untilTurn : Nat} {fresh : Nat → Nat} {st : StoredBuf.Job} (ha : Askable objs idx)
    (hr : ∀ r, TightRanges (chosen objs idx) r → Resettable (toSide r) w.lattice untilTurn)
    (hst : j.stored.clearOld = .ok st) (hg : given ≠ some .own) :
    ∃ x r, OldJob.reset j w objs idx given untilTurn fresh = .ok x ∧ TightRanges (chosen objs idx) r ∧
      (x.1 = true ↔ (TrackJob.Storing w.lattice → NoTrailingInactive r.minTurn w.lattice)) := by
  have hl : w.lattice ≠ [] := by
    intro hc
    obtain ⟨i, hi, ps, hp⟩ := ha.some
    obtain ⟨s, -, h2, -⟩ := setIndices_holds (s := j.sets) hi hp
    obtain ⟨-, r, -, h5⟩ := ha.ranges h2
    exact (hr r h5).ne hc
  obtain ⟨s, r, h1, h2, -, h3⟩ := reset_new (j := j) (w := w) (untilTurn := untilTurn) (fresh := fresh) ha hst hg hl
  obtain ⟨y, g1, g2⟩ := C72_reset_succeeds (j := blank) (w := { w with own := [] }) (given := given)
    (samePB := false) (sameBE := false) (fresh := fresh) (hr r h2) hg (by intro _; decide)
  rw [g1, Res.ok_bind] at h3
  refine ⟨_, r, h3, h2, ?_⟩
  rw [decide_eq_true_iff]
  exact g2

/-- **C89 (what is ready)**: after a reset that succeeds, the ranges of the job are those of the asked particles, with
the elements of the lattice; the output buffer is the one that has been passed, or one of the job if none is; the
element-by-element output and the monitors are ready if they are required. -/
theorem C89_ready {j : OldJob.Job} {w : World} {objs : List (Option (List Attr))} {idx : List Nat}
    {given : Option Ref} {untilTurn : Nat} {fresh : Nat → Nat} {x : Bool × OldJob.Job × World}
    (ha : Askable objs idx)
    (hr : ∀ r, TightRanges (chosen objs idx) r → Resettable (toSide r) w.lattice untilTurn)
    (h : OldJob.reset j w objs idx given untilTurn fresh = .ok x) (hx : x.1 = true) :
    x.2.1.bound = true ∧ ∃ r, TightRanges (chosen objs idx) r ∧
      (r.minTurn < untilTurn ∨ TrackJob.Storing w.lattice →
        x.2.1.side.rng = TrackJob.withElements (toSide r) w.lattice ∧
        x.2.1.side.out = some (resetTarget given)) ∧
      (r.minTurn < untilTurn → EbeReady x.2.1.side x.2.2 untilTurn) ∧
      (TrackJob.Storing w.lattice → MonitorsReady w.lattice x.2.1.side x.2.2) ∧
      (untilTurn ≤ r.minTurn → ¬ TrackJob.Storing w.lattice →
        x.2.1.side.out = given ∧ x.2.2.ext = w.ext ∧ x.2.1.side.hasEbe = false ∧ x.2.1.side.hasMon = false) := by
  obtain ⟨st, s, h1, hg, h3, h4⟩ := reset_ok h
  obtain ⟨r0, -, hl⟩ := (doReset_keeps h4).2.2.2 hx
  obtain ⟨s', r, -, g2, -, g3⟩ := reset_new (j := j) (w := w) (untilTurn := untilTurn) (fresh := fresh) ha h1 hg hl
  rw [h] at g3
  obtain ⟨y, g4, g5⟩ := Res.bind_eq_ok.1 g3.symm
  rw [Res.ok_inj] at g5
  subst g5
  have hs : y.1 = SUCCESS := by simpa using hx
  have hr' : Resettable (toSide r) ({ w with own := [] } : World).lattice untilTurn := hr r g2
  refine ⟨rfl, r, g2, ?_, ?_, ?_, ?_⟩
  · rintro (hc | hc)
    · have := C72_ebe_ready hr' hg (by intro _; rfl) hc g4 hs
      exact ⟨this.1, this.2.1⟩
    · have := C72_monitors_ready hr' hg (by intro _; decide) hc g4 hs
      exact ⟨this.1, this.2.1⟩
  · intro hc
    exact (C72_ebe_ready hr' hg (by intro _; rfl) hc g4 hs).2.2
  · intro hc
    exact (C72_monitors_ready hr' hg (by intro _; decide) hc g4 hs).2.2
  · intro hc hn
    obtain ⟨z, k1, -, k3, k4, k5⟩ := C72_nothing_required (fresh := fresh) (samePB := false) (sameBE := false)
      hr' hg (by intro _; decide) hc hn (j := blank) (given := given)
    rw [g4, Res.ok_inj] at k1
    subst k1
    obtain ⟨a, b, -, -⟩ := k5 (by
      cases given with
      | none => exact .inl rfl
      | some g => exact .inr (fun hc => by cases hc))
    exact ⟨k3, k4, a, b⟩

/-- **C89 (ranges)**: the ids and turns of a job that has been reset, and requires output, are the smallest and largest
of the asked particles, and its element ids are those widened to the lattice. -/
theorem C89_ranges {j : OldJob.Job} {w : World} {objs : List (Option (List Attr))} {idx : List Nat}
    {given : Option Ref} {untilTurn : Nat} {fresh : Nat → Nat} {x : Bool × OldJob.Job × World}
    (ha : Askable objs idx)
    (hr : ∀ r, TightRanges (chosen objs idx) r → Resettable (toSide r) w.lattice untilTurn)
    (h : OldJob.reset j w objs idx given untilTurn fresh = .ok x) (hx : x.1 = true)
    (hs : TrackJob.Storing w.lattice) :
    ∃ r, TightRanges (chosen objs idx) r ∧
      x.2.1.side.rng = ⟨r.minId, r.maxId, min r.minElem 0, max r.maxElem (w.lattice.length - 1), r.minTurn,
        r.maxTurn⟩ := by
  obtain ⟨-, r, h1, h2, -⟩ := C89_ready ha hr h hx
  exact ⟨r, h1, (h2 (.inr hs)).1⟩

/-- **C89 (new job)**: a new job has set 0 with no particles counted, empty ranges, no monitors, no elements, no
output, the standard order and rolling output, and nothing in its lists. -/
theorem C89_new (n : Nat) :
    (OldJob.Job.new n).sets = ⟨[0], [0], 0⟩ ∧ (OldJob.Job.new n).bound = false ∧
      (OldJob.Job.new n).side.rng = ⟨0, 0, 0, 0, 0, 0⟩ ∧ (OldJob.Job.new n).side.numMonitors = 0 ∧
      (OldJob.Job.new n).side.numElements = 0 ∧ (OldJob.Job.new n).side.out = none ∧
      (OldJob.Job.new n).side.cfg = none ∧ (OldJob.Job.new n).side.hasEbe = false ∧
      (OldJob.Job.new n).side.hasMon = false ∧ (OldJob.Job.new n).side.order = EBE.ORDER_TEP ∧
      (OldJob.Job.new n).side.rolling = true ∧ (OldJob.Job.new n).side.untilTurn = 0 ∧
      (OldJob.Job.new n).side.ebeOffset = 0 ∧ (OldJob.Job.new n).side.monOffset = 0 :=
  ⟨rfl, rfl, rfl, rfl, rfl, rfl, rfl, rfl, rfl, rfl, rfl, rfl, rfl, rfl⟩

/-- **C89 (what is added)**: a reset that succeeds and requires output leaves the objects that are in an output buffer
of the caller and adds the object for the element-by-element output, if that reaches beyond the first turn, and then
those of the active monitors; the other buffers of the caller stay as they are. -/
theorem C89_output_added {j : OldJob.Job} {w : World} {objs : List (Option (List Attr))} {idx : List Nat}
    {given : Option Ref} {untilTurn : Nat} {fresh : Nat → Nat} {x : Bool × OldJob.Job × World}
    (ha : Askable objs idx)
    (hr : ∀ r, TightRanges (chosen objs idx) r → Resettable (toSide r) w.lattice untilTurn)
    (h : OldJob.reset j w objs idx given untilTurn fresh = .ok x) (hx : x.1 = true) :
    ∃ r, TightRanges (chosen objs idx) r ∧ (r.minTurn < untilTurn ∨ TrackJob.Storing w.lattice →
      (∃ ebe mons, x.2.2.get (resetTarget given) = objectsBefore w given ++ ebe ++ mons ∧
        x.2.1.side.monOffset = (objectsBefore w given ++ ebe).length ∧
        mons.map (·.particles) = monitorRecords w.lattice r.minId r.maxId r.minTurn ∧
        (r.minTurn < untilTurn → x.2.1.side.ebeOffset + 1 = x.2.1.side.monOffset ∧ ebe.map (·.particles) =
          [some ((r.maxId - r.minId + 1) * (max r.maxElem (w.lattice.length - 1) - min r.minElem 0 + 1) *
            (untilTurn - r.minTurn)).toNat]) ∧
        (untilTurn ≤ r.minTurn → ebe = [])) ∧
      ∀ i, resetTarget given ≠ .ext i → x.2.2.ext i = w.ext i) := by
  obtain ⟨st, s, h1, hg, h3, h4⟩ := reset_ok h
  obtain ⟨r0, -, hl⟩ := (doReset_keeps h4).2.2.2 hx
  obtain ⟨s', r, -, g2, -, g3⟩ := reset_new (j := j) (w := w) (untilTurn := untilTurn) (fresh := fresh) ha h1 hg hl
  rw [h] at g3
  obtain ⟨y, g4, g5⟩ := Res.bind_eq_ok.1 g3.symm
  rw [Res.ok_inj] at g5
  subst g5
  have hs : y.1 = SUCCESS := by simpa using hx
  have hr' : Resettable (toSide r) ({ w with own := [] } : World).lattice untilTurn := hr r g2
  refine ⟨r, g2, fun hreq => ?_⟩
  have := C72_output_added hr' hg (by intro _; decide) hreq g4 hs
  have hb : objectsBefore ({ w with own := [] } : World) given = objectsBefore w given := by
    match given with
    | none => rfl
    | some .own => rfl
    | some (.ext i) => rfl
  rw [hb] at this
  exact this

/-- **C89 (nothing is left of the past)**: what a reset does depends on the job only by the total number of particles,
which is kept if no set is chosen, by the list of the keys of the address assignments and by the stored buffers, which
have to be freed. -/
theorem C89_fresh (j j' : OldJob.Job) (w : World) (own' : List Monitor.OutObj) (objs : List (Option (List Attr)))
    (idx : List Nat) (given : Option Ref) (untilTurn : Nat) (fresh : Nat → Nat) (x x' : Bool × OldJob.Job × World)
    (h : OldJob.reset j w objs idx given untilTurn fresh = .ok x)
    (h' : OldJob.reset j' { w with own := own' } objs idx given untilTurn fresh = .ok x') :
    x'.1 = x.1 ∧ x'.2.1.side = x.2.1.side ∧ x'.2.1.sets.indices = x.2.1.sets.indices ∧
      x'.2.1.sets.nums = x.2.1.sets.nums ∧ x'.2.1.bound = x.2.1.bound ∧ x'.2.2 = x.2.2 := by
  obtain ⟨st, s, -, -, h3, h4⟩ := reset_ok h
  obtain ⟨st', s', -, -, h3', h4'⟩ := reset_ok h'
  have hs : s'.indices = s.indices ∧ s'.nums = s.nums := by
    unfold chooseSets at h3 h3'
    split at h3
    · rename_i hc
      rw [if_pos hc] at h3'
      unfold OldJob.setIndices at h3 h3'
      simp only [Res.ok_inj] at h3 h3'
      subst h3; subst h3'
      exact ⟨rfl, rfl⟩
    · rename_i hc
      rw [if_neg hc, Res.ok_inj] at h3'
      rw [Res.ok_inj] at h3
      subst h3; subst h3'
      exact ⟨rfl, rfl⟩
  have hf : findRangesOf objs s' = findRangesOf objs s := by
    unfold findRangesOf; rw [hs.1]
  have ho : outputPart s' = outputPart s := by
    funext a b c d e; unfold outputPart; rw [hs.1]
  unfold doReset at h4 h4'
  simp only [hf, ho] at h4'
  simp only at h4
  obtain ⟨r, h5, h4⟩ := Res.bind_eq_ok.1 h4
  rw [h5, Res.ok_bind] at h4'
  split at h4
  · rename_i hr
    rw [if_pos hr] at h4'
    split at h4
    · rename_i hx
      rw [if_pos hx] at h4'
      obtain ⟨y, h6, h4⟩ := Res.bind_eq_ok.1 h4
      rw [h6, Res.ok_bind, Res.pure_eq, Res.ok_inj] at h4'
      rw [Res.pure_eq, Res.ok_inj] at h4
      subst h4; subst h4'
      exact ⟨rfl, rfl, hs.1, hs.2, rfl, rfl⟩
    · rename_i hx
      rw [if_neg hx, Res.pure_eq, Res.ok_inj] at h4'
      rw [Res.pure_eq, Res.ok_inj] at h4
      subst h4; subst h4'
      exact ⟨rfl, rfl, hs.1, hs.2, rfl, rfl⟩
  · rename_i hr
    rw [if_neg hr, Res.pure_eq, Res.ok_inj] at h4'
    rw [Res.pure_eq, Res.ok_inj] at h4
    subst h4; subst h4'
    exact ⟨rfl, rfl, hs.1, hs.2, rfl, rfl⟩

/-- **C89 (making a job)**: to make a job with a list of indices is to reset a new one. -/
theorem C89_make (n : Nat) (w : World) (hw : w.own = []) (objs : List (Option (List Attr))) (idx : List Nat)
    (given : Option Ref) (untilTurn : Nat) (fresh : Nat → Nat) (x : Bool × OldJob.Job × World)
    (h : OldJob.reset (OldJob.Job.new n) w objs idx given untilTurn fresh = .ok x) (hx : x.1 = true) :
    make n w objs (.many idx) given untilTurn fresh = .ok x := by
  obtain ⟨st, s, h1, hg, h3, h4⟩ := reset_ok h
  obtain ⟨r, hr, hl⟩ := (doReset_keeps h4).2.2.2 hx
  have hst : st = StoredBuf.Job.new n := by
    have : (OldJob.Job.new n).stored.clearOld = .ok (StoredBuf.Job.new n) := rfl
    rw [this, Res.ok_inj] at h1
    exact h1.symm
  subst hst
  have hw' : { w with own := [] } = w := by rw [← hw]
  rw [hw'] at h4
  unfold make Choice.sets
  rw [show (⟨[0], [0], 0⟩ : OldJob.Sets) = (OldJob.Job.new n).sets.default from rfl]
  simp only [h3, Res.ok_bind]
  unfold doReset at h4 ⊢
  simp only at hr
  simp only [hr, Res.ok_bind] at h4 ⊢
  exact h4

/-! ## What is refused -/

/-- **C89 (empty sets)**: a reset that is asked for a set without particles fails. -/
theorem C89_refused {j : OldJob.Job} {w : World} {objs : List (Option (List Attr))} {idx : List Nat}
    {given : Option Ref} {untilTurn : Nat} {fresh : Nat → Nat} {x : Bool × OldJob.Job × World}
    (h : OldJob.reset j w objs idx given untilTurn fresh = .ok x) (i : Nat) (hi : i ∈ idx)
    (hp : objs[i]? = some (some [])) : x.1 = false := by
  cases hx : x.1 with
  | false => rfl
  | true =>
    have hs := C89_sets h i [] hi hp
    obtain ⟨st, s, -, -, -, h4⟩ := reset_ok h
    obtain ⟨k1, -, -, k4⟩ := doReset_keeps h4
    obtain ⟨r, hr, -⟩ := k4 hx
    rw [k1] at hs
    exact absurd rfl (findRangesOf_ok hr i ((hs.mem i).2 ⟨hi, [], hp⟩) [] hp)

/-- **C89 (no lattice)**: a reset with no beam elements fails. -/
theorem C89_no_elements {j : OldJob.Job} {w : World} {objs : List (Option (List Attr))} {idx : List Nat}
    {given : Option Ref} {untilTurn : Nat} {fresh : Nat → Nat} {x : Bool × OldJob.Job × World}
    (h : OldJob.reset j w objs idx given untilTurn fresh = .ok x) (hl : w.lattice = []) :
    x.1 = false ∧ x.2.1.bound = false := by
  obtain ⟨st, s, -, -, -, h4⟩ := reset_ok h
  unfold doReset at h4
  obtain ⟨r, -, h4⟩ := Res.bind_eq_ok.1 h4
  split at h4
  · simp only at h4
    rw [if_neg (by simp [TrackJob.prepareElements, hl, FAILURE, SUCCESS]), Res.pure_eq, Res.ok_inj] at h4
    subst h4
    exact ⟨rfl, rfl⟩
  · rw [Res.pure_eq, Res.ok_inj] at h4
    subst h4
    exact ⟨rfl, rfl⟩

/-! ## Selecting a set -/

/-- **C89 (selecting a set)**: unless the elements and the output buffer are C++ buffers, selecting a set of the buffer
resets the job with this set, with an output buffer that is empty. -/
theorem C89_select_partial {j : OldJob.Job} {w : World} {objs : List (Option (List Attr))} {cxxElems cxxOut : Bool}
    {k : Nat} {fresh : Nat → Nat} {x : Bool × OldJob.Job × World} {ps : List Attr} (hb : j.bound = true)
    (hp : objs[k]? = some (some ps))
    (hc : cxxElems = false ∨ j.side.out = none ∨ cxxOut = false ∧ j.side.out ≠ some .own)
    (h : OldJob.selectSet j w objs cxxElems cxxOut k fresh = .ok x) :
    x.2.1.sets = ⟨[k], [ps.length], ps.length⟩ ∧
    ∃ w' given, w'.lattice = w.lattice ∧ objectsBefore w' given = [] ∧
      (∀ i, j.side.out ≠ some (.ext i) → w'.ext i = w.ext i) ∧
      (given = if j.side.out = some .own then none else j.side.out) ∧
      OldJob.reset j w' objs [k] given j.side.untilTurn.toNat fresh = .ok x := by
  have hk : k < objs.length := (List.getElem?_eq_some_iff.1 hp).1
  have key : ∃ w' given, w'.lattice = w.lattice ∧ objectsBefore w' given = [] ∧
      (∀ i, j.side.out ≠ some (.ext i) → w'.ext i = w.ext i) ∧
      (given = if j.side.out = some .own then none else j.side.out) ∧
      OldJob.reset j w' objs [k] given j.side.untilTurn.toNat fresh = .ok x := by
    unfold OldJob.selectSet at h
    rw [if_pos ⟨hb, hk⟩] at h
    match ho : j.side.out with
    | none =>
      rw [ho] at h
      exact ⟨w, none, rfl, rfl, fun _ _ => rfl, rfl, h⟩
    | some .own =>
      rw [ho] at h hc
      have : cxxElems = false := by
        rcases hc with hc | hc | hc
        · exact hc
        · cases hc
        · exact absurd rfl hc.2
      subst this
      exact ⟨w, none, rfl, rfl, fun _ _ => rfl, rfl, h⟩
    | some (.ext i) =>
      rw [ho] at h hc
      have : (cxxElems && cxxOut) = false := by
        rcases hc with hc | hc | hc
        · simp [hc]
        · cases hc
        · simp [hc.1]
      simp only [this, Bool.false_eq_true, if_false] at h
      refine ⟨w.set (.ext i) [], some (.ext i), rfl, by simp [objectsBefore, World.set], ?_, rfl, h⟩
      intro i' hi'
      have : i' ≠ i := fun hc => hi' (by rw [hc])
      simp [World.set, this]
  obtain ⟨w', given, -, -, -, -, hr⟩ := id key
  refine ⟨?_, key⟩
  obtain ⟨st, s, -, -, h3, h4⟩ := reset_ok hr
  rw [(doReset_keeps h4).1]
  have ha : accepted objs k = true := accepted_iff.2 ⟨ps, hp⟩
  have : OldJob.setIndices j.sets.default (some objs) [k] = .ok ⟨[k], [ps.length], ps.length⟩ := by
    simp [OldJob.setIndices, ha, sortIdx, insertIdx, unique, countOf, hp]
  unfold chooseSets at h3
  rw [if_pos (by simp), this, Res.ok_inj] at h3
  exact h3.symm

/-- **C89 (nothing to select)**: without buffers, or beyond the end of the particles buffer, nothing is done. -/
theorem C89_select_refused (j : OldJob.Job) (w : World) (objs : List (Option (List Attr))) (cxxElems cxxOut : Bool)
    (k : Nat) (fresh : Nat → Nat) (h : j.bound = false ∨ objs.length ≤ k) :
    OldJob.selectSet j w objs cxxElems cxxOut k fresh = .ok (false, j, w) := by
  unfold OldJob.selectSet
  rw [if_neg]
  rintro ⟨h1, h2⟩
  rcases h with h | h
  · rw [h] at h1; cases h1
  · omega

/-! ## What is wrong -/

/-- **C89 is false of the code**: with C++ buffers, selecting a set takes the output buffer for the particles buffer,
and reads it after the reset has freed it, or looks for the first object of a buffer that has just been emptied. -/
theorem C89_select_violated (j : OldJob.Job) (w : World) (objs : List (Option (List Attr))) (k : Nat)
    (fresh : Nat → Nat) (hb : j.bound = true) (hk : k < objs.length) (st : StoredBuf.Job)
    (hst : j.stored.clearOld = .ok st) (ho : j.side.out ≠ none) :
    OldJob.selectSet j w objs true true k fresh = .ub := by
  unfold OldJob.selectSet
  rw [if_pos ⟨hb, hk⟩]
  match hx : j.side.out with
  | none => exact absurd hx ho
  | some .own => rfl
  | some (.ext i) =>
    simp only [Bool.and_self, if_true]
    rw [reset_eq (s := ⟨[], [], j.sets.total⟩) hst (by simp)]
    · unfold doReset
      rfl
    · rfl

/-- **C89 is false of the code**: a job can not be made with the index of one set unless that is 0, because the
constructor looks for the set without the buffer. -/
theorem C89_one_violated (n : Nat) (w : World) (objs : List (Option (List Attr))) (k : Nat) (hk : 0 < k)
    (given : Option Ref) (untilTurn : Nat) (fresh : Nat → Nat) :
    make n w objs (.one k) given untilTurn fresh = .ub := by
  have : Choice.sets objs (.one k) = .ub := by
    have hk' : k ≠ 0 := by omega
    simp [Choice.sets, OldJob.setIndices, sortIdx, insertIdx, unique, hk']
  unfold make
  rw [this]
  rfl

/-- **C89 is false of the code**: a job that is made with set 0, or without an index, counts no particles in it. -/
theorem C89_uncounted_violated :
    (∀ (n : Nat) (w : World) (objs : List (Option (List Attr))) (c : Choice) (given : Option Ref) (untilTurn : Nat)
      (fresh : Nat → Nat) (x : Bool × OldJob.Job × World), c = .default ∨ c = .one 0 ∨ c = .many [] →
      make n w objs c given untilTurn fresh = .ok x → x.2.1.sets = ⟨[0], [0], 0⟩) ∧
    (∀ (j : OldJob.Job) (w : World) (objs : List (Option (List Attr))) (given : Option Ref) (untilTurn : Nat)
      (fresh : Nat → Nat) (x : Bool × OldJob.Job × World),
      OldJob.reset j w objs [] given untilTurn fresh = .ok x → x.2.1.sets = ⟨[0], [0], j.sets.total⟩) ∧
    ∃ x, make 0 ⟨[], fun _ => [], [.other]⟩ [some [⟨1, 0, 0⟩, ⟨2, 0, 0⟩]] (.one 0) none 0 (5000 + ·) = .ok x ∧
      x.1 = true := by
  refine ⟨?_, ?_, ?_⟩
  · intro n w objs c given untilTurn fresh x hc h
    have : c.sets objs = .ok ⟨[0], [0], 0⟩ := by rcases hc with rfl | rfl | rfl <;> rfl
    unfold make at h
    rw [this, Res.ok_bind] at h
    exact (doReset_keeps h).1
  · intro j w objs given untilTurn fresh x h
    obtain ⟨st, s, -, -, h3, h4⟩ := reset_ok h
    rw [(doReset_keeps h4).1]
    unfold chooseSets at h3
    rw [if_neg (by simp), Res.ok_inj] at h3
    exact h3.symm
  · exact ⟨_, rfl, by decide +kernel⟩

/-- **C89 is false of the code**: if none of the asked objects is a particle set, the reset succeeds nevertheless if
object 0 is one; the job then has no sets and no output, and the total number of particles is the one from before. -/
theorem C89_none_left_violated (j : OldJob.Job) (w : World) (objs : List (Option (List Attr))) (idx : List Nat)
    (given : Option Ref) (untilTurn : Nat) (fresh : Nat → Nat) (st : StoredBuf.Job) (ps : List Attr)
    (hst : j.stored.clearOld = .ok st) (hg : given ≠ some .own) (hl : w.lattice ≠ []) (hi : idx ≠ [])
    (hno : ∀ i ∈ idx, ∀ qs, objs[i]? ≠ some (some qs)) (h0 : objs[0]? = some (some ps)) (hps : ps ≠ [])
    (hok : ∀ q ∈ ps, AttrOk q) :
    ∃ x, OldJob.reset j w objs idx given untilTurn fresh = .ok x ∧ x.1 = true ∧
      x.2.1.sets = ⟨[], [], j.sets.total⟩ ∧ x.2.1.side.out = given ∧ x.2.1.side.hasEbe = false ∧
      x.2.1.side.hasMon = false ∧ x.2.2.ext = w.ext := by
  have hs : chooseSets j.sets.default objs idx = .ok ⟨[], [], j.sets.total⟩ := by
    have hf : idx.filter (accepted objs) = [] := by
      rw [List.filter_eq_nil_iff]
      intro i hm ha
      obtain ⟨qs, hq⟩ := accepted_iff.1 ha
      exact hno i hm qs hq
    unfold chooseSets OldJob.setIndices
    rw [if_pos hi]
    simp only [hf]
    rfl
  obtain ⟨p, qs, rfl⟩ := List.exists_cons_of_ne_nil hps
  obtain ⟨o, os, rfl⟩ : ∃ o os, objs = o :: os := by
    cases objs with
    | nil => cases h0
    | cons o os => exact ⟨o, os, rfl⟩
  have ho : o = some (p :: qs) := by simpa using h0
  subst ho
  obtain ⟨r, -, hr⟩ := findMinMax_local (p :: qs) hps hok
  have hfr := hr initRanges
  have hfind : ∃ r, findRangesOf (some (p :: qs) :: os) ⟨[], [], j.sets.total⟩ = .ok (0, r) := ⟨_, hfr⟩
  obtain ⟨r', hr'⟩ := hfind
  rw [reset_eq hst hg hs]
  obtain ⟨es, n, -, he⟩ := TrackJob.prepareElements_ok (j := { blank with rng := toSide r' })
    (w := { w with own := [] }) (samePB := false) hl
  unfold doReset
  simp only [hr', Res.ok_bind, he, outputPart, if_true]
  exact ⟨_, rfl, rfl, rfl, rfl, rfl, rfl, rfl⟩

/-- **C89 is false of the code**: the output buffer of the job itself can not be passed to a reset, which frees it. -/
theorem C89_own_violated (j : OldJob.Job) (w : World) (objs : List (Option (List Attr))) (idx : List Nat)
    (untilTurn : Nat) (fresh : Nat → Nat) : OldJob.reset j w objs idx (some .own) untilTurn fresh = .ub := by
  match h : OldJob.reset j w objs idx (some .own) untilTurn fresh with
  | .ub => rfl
  | .ok x =>
    obtain ⟨-, -, -, hg, -⟩ := reset_ok h
    exact absurd rfl hg

/-- **C89 is false of the code**: a reset, even one that fails, drops the stored buffers and the address assignments,
and the settings of the element-by-element output; the keys of the assignments stay. -/
theorem C89_drops_violated :
    (∀ (j : OldJob.Job) (w : World) (objs : List (Option (List Attr))) (idx : List Nat) (given : Option Ref)
      (untilTurn : Nat) (fresh : Nat → Nat) (x : Bool × OldJob.Job × World),
      OldJob.reset j w objs idx given untilTurn fresh = .ok x →
      x.2.1.stored.slots = [] ∧ x.2.1.stored.num = 0 ∧ x.2.1.lists.map = [] ∧ x.2.1.lists.keys = j.lists.keys) ∧
    ∃ (st : StoredBuf.Job) (x : Bool × OldJob.Job × World), StoredBuf.Reached st ∧ st.ptr 1024 = some 0 ∧
      OldJob.reset { OldJob.Job.new 0 with stored := st } ⟨[], fun _ => [], []⟩ [some [⟨1, 0, 0⟩]] [0] none 0
        (5000 + ·) = .ok x ∧ x.1 = false ∧ x.2.1.stored.ptr 1024 = none ∧ x.2.1.stored.alive 0 = false := by
  constructor
  · intro j w objs idx given untilTurn fresh x h
    obtain ⟨st, s, h1, -, -, h4⟩ := reset_ok h
    obtain ⟨-, k2, k3, -⟩ := doReset_keeps h4
    unfold StoredBuf.Job.clearOld at h1
    obtain ⟨t, -, h1⟩ := Res.bind_eq_ok.1 h1
    rw [Res.pure_eq, Res.ok_inj] at h1
    subst h1
    rw [k2, k3]
    exact ⟨rfl, rfl, rfl, rfl⟩
  · exact ⟨_, _, ⟨0, [.add .create], rfl⟩, by decide, rfl, by decide, by decide, by decide⟩

/-! ## Examples -/

/-- a buffer with something else, a set with two particles and an empty set -/
def oldObjs : List (Option (List Attr)) := [none, some [⟨1, 0, 0⟩, ⟨0, 0, 0⟩], some []]

theorem oldObjs_askable : Askable oldObjs [1, 0, 9, 1] :=
  ⟨⟨1, by simp, _, rfl⟩, by
    intro i hi ps hp
    simp at hi
    rcases hi with rfl | rfl | rfl | rfl <;> simp [oldObjs] at hp <;> rw [← hp] <;> simp, by decide⟩

theorem oldObjs_resettable (r : Particles.Ranges) (h : TightRanges (chosen oldObjs [1, 0, 9, 1]) r) :
    Resettable (toSide r) jobWorld.lattice 10 := by
  have hc : chosen oldObjs [1, 0, 9, 1] = [⟨1, 0, 0⟩, ⟨0, 0, 0⟩, ⟨1, 0, 0⟩, ⟨0, 0, 0⟩] := by decide
  rw [hc] at h
  have : toSide r = jobRanges := by
    obtain ⟨⟨a1, a2, a3⟩, ⟨b1, b2, b3⟩, ⟨c1, c2, c3⟩⟩ := h
    simp [absId] at a1 a2 a3 b1 b2 b3 c1 c2 c3
    have h1 : (|1| : Int) = 1 := rfl
    rw [h1] at a1 a2 a3
    unfold toSide jobRanges
    congr <;> omega
  rw [this]
  exact jobRanges_resettable

/-- a job with a stored buffer, an address assignment and an output buffer of its own -/
def usedJob : OldJob.Job :=
  { sets := ⟨[5], [3], 3⟩
    side := { newJob with out := some .own, hasMon := true, monOffset := 4, order := 1, untilTurn := 7 }
    stored := ⟨[⟨some 0, some 0, some 0⟩], 1, 1, 1, fun b => decide (b < 1)⟩
    lists := ⟨[], [⟨1, 2⟩]⟩
    bound := true }

theorem usedJob_clear : ∃ st, usedJob.stored.clearOld = .ok st := ⟨_, rfl⟩

/-- the used job reset with the example lattice -/
theorem oldReset_ok (given : Option Ref) (hg : given ≠ some .own) :
    ∃ x, OldJob.reset usedJob jobWorld oldObjs [1, 0, 9, 1] given 10 (5000 + ·) = .ok x ∧ x.1 = true := by
  obtain ⟨st, hst⟩ := usedJob_clear
  obtain ⟨x, r, h1, h2, h3⟩ := C89_succeeds (j := usedJob) (w := jobWorld) (given := given)
    (fresh := (5000 + ·)) oldObjs_askable oldObjs_resettable hst hg
  have hmin : r.minTurn = 0 := by
    have hc : chosen oldObjs [1, 0, 9, 1] = [⟨1, 0, 0⟩, ⟨0, 0, 0⟩, ⟨1, 0, 0⟩, ⟨0, 0, 0⟩] := by decide
    rw [hc] at h2
    have := h2.2.2.2.1
    simp at this
    exact this.symm
  exact ⟨x, h1, h3.2 (fun _ => by rw [hmin]; exact jobWorld_noTrailing)⟩

example : ∃ x, OldJob.reset usedJob jobWorld oldObjs [1, 0, 9, 1] (some (.ext 3)) 10 (5000 + ·) = .ok x ∧
    Holds oldObjs [1, 0, 9, 1] x.2.1.sets ∧ MonitorsReady jobWorld.lattice x.2.1.side x.2.2 := by
  obtain ⟨x, h, hx⟩ := oldReset_ok (some (.ext 3)) (by decide)
  obtain ⟨-, r, -, -, -, h4, -⟩ := C89_ready oldObjs_askable oldObjs_resettable h hx
  exact ⟨x, h, C89_sets h 1 _ (by simp) rfl, h4 jobWorld_storing⟩

example : ∃ x, OldJob.reset usedJob jobWorld oldObjs [1, 0, 9, 1] none 10 (5000 + ·) = .ok x ∧
    ∃ r, TightRanges (chosen oldObjs [1, 0, 9, 1]) r ∧ x.2.1.side.rng.maxT = r.maxTurn := by
  obtain ⟨x, h, hx⟩ := oldReset_ok none (by decide)
  obtain ⟨r, h1, h2⟩ := C89_ranges oldObjs_askable oldObjs_resettable h hx jobWorld_storing
  exact ⟨x, h, r, h1, by rw [h2]⟩

example : ∃ x, OldJob.reset usedJob jobWorld oldObjs [1, 0, 9, 1] none 10 (5000 + ·) = .ok x ∧
    ∃ ebe mons, x.2.2.own = ebe ++ mons := by
  obtain ⟨x, h, hx⟩ := oldReset_ok none (by decide)
  obtain ⟨r, -, h2⟩ := C89_output_added oldObjs_askable oldObjs_resettable h hx
  obtain ⟨⟨ebe, mons, h3, -⟩, -⟩ := h2 (.inr jobWorld_storing)
  exact ⟨x, h, ebe, mons, h3⟩

example : ∃ x x', OldJob.reset usedJob jobWorld oldObjs [1, 0, 9, 1] none 10 (5000 + ·) = .ok x ∧
    OldJob.reset (OldJob.Job.new 0) jobWorld oldObjs [1, 0, 9, 1] none 10 (5000 + ·) = .ok x' ∧
    x'.2.1.side = x.2.1.side := by
  obtain ⟨x, h, -⟩ := oldReset_ok none (by decide)
  obtain ⟨x', -, h', -, -⟩ := C89_succeeds (j := OldJob.Job.new 0) (w := jobWorld) (given := none)
    (fresh := (5000 + ·)) oldObjs_askable oldObjs_resettable rfl (by decide)
  exact ⟨x, x', h, h', (C89_fresh _ _ _ jobWorld.own _ _ _ _ _ _ _ h h').2.1⟩

example : ∃ x, make 0 jobWorld oldObjs (.many [1, 0, 9, 1]) (some (.ext 3)) 10 (5000 + ·) = .ok x ∧
    x.2.1.sets.nums = [2] := ⟨_, rfl, by decide +kernel⟩

example : ∃ x, OldJob.reset usedJob jobWorld oldObjs [1, 2] none 10 (5000 + ·) = .ok x ∧ x.1 = false :=
  ⟨_, rfl, C89_refused (j := usedJob) (w := jobWorld) (objs := oldObjs) (idx := [1, 2]) (given := none)
    (untilTurn := 10) (fresh := (5000 + ·)) rfl 2 (by decide) rfl⟩

example : ∃ x, OldJob.reset usedJob { jobWorld with lattice := [] } oldObjs [1] none 10 (5000 + ·) = .ok x ∧
    x.1 = false :=
  ⟨_, rfl, (C89_no_elements (j := usedJob) (w := { jobWorld with lattice := [] }) (objs := oldObjs) (idx := [1])
    (given := none) (untilTurn := 10) (fresh := (5000 + ·)) rfl rfl).1⟩

example : ∃ x, OldJob.selectSet usedJob jobWorld oldObjs false false 1 (5000 + ·) = .ok x ∧
    x.2.1.sets = ⟨[1], [2], 2⟩ :=
  ⟨_, rfl, (C89_select_partial (j := usedJob) (w := jobWorld) (objs := oldObjs) (cxxElems := false)
    (cxxOut := false) (k := 1) (fresh := (5000 + ·)) rfl rfl (.inl rfl) rfl).1⟩

example : OldJob.selectSet usedJob jobWorld oldObjs true true 1 (5000 + ·) = .ub := by
  obtain ⟨st, hst⟩ := usedJob_clear
  exact C89_select_violated _ _ _ _ _ rfl (by decide) st hst (by decide)

end SixTrack
