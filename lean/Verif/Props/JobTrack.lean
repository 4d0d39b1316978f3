import Verif.JobTrackLemmas
import Verif.Props.TrackEbe
import Verif.Props.TrackParallel
import Verif.Props.ParticleSets

/-!
# C76: a CPU job tracks its particle sets
-/

namespace SixTrack
open Track EBE JobTrack

variable {E C R : Type}

/-- Every particle of the sets `sets`, and no other, has been tracked by `F`, whatever the records of the
monitors were at that time; the status is success exactly if each of them was tracked with success. -/
structure Tracked (F : Track.World C R → Int × Track.World C R) (sets : List Nat) (m : JobTrack.Mem C R)
    (st : Status) (m' : JobTrack.Mem C R) : Prop where
  others : ∀ i : Nat, i ∉ sets → m'.objs[i]? = m.objs[i]?
  each : ∀ (i : Nat) (ps : List (Part C)), i ∈ sets → m.objs[i]? = some (some ps) →
    ∀ o : Nat → R, m'.objs[i]? = some (some (ps.map fun p => (F ⟨p, o⟩).2.part))
  status : st = 0#32 ↔ ∀ (i : Nat) (ps : List (Part C)), i ∈ sets → m.objs[i]? = some (some ps) →
    ∀ p ∈ ps, ∀ o : Nat → R, (F ⟨p, o⟩).1 = 0

/-- The statuses of the elements are 32 bit numbers (their C type). -/
def Status32 (S : Sem E C R) (lat : List E) : Prop :=
  ∀ e ∈ lat, ∀ p, -2 ^ 31 ≤ (S.dispatch e p).status ∧ (S.dispatch e p).status < 2 ^ 31

/-- The particle `p` is number `j` of set `i`. -/
def Holds (m : JobTrack.Mem C R) (i j : Nat) (p : Part C) : Prop :=
  ∃ ps, m.objs[i]? = some (some ps) ∧ ps[j]? = some p

/-- The records: what is left in them is what tracking the particle they belong to, alone, leaves there;
records that belong to no tracked particle are as before. -/
structure Recorded (F : Track.World C R → Int × Track.World C R) (owner : Nat → Int) (sets : List Nat)
    (m m' : JobTrack.Mem C R) : Prop where
  own : ∀ (i j : Nat) (p : Part C), i ∈ sets → Holds m i j p → ∀ k : Nat, owner k = p.id →
    m'.out k = (F ⟨p, m.out⟩).2.out k
  others : ∀ k : Nat, (∀ (i j : Nat) (p : Part C), i ∈ sets → Holds m i j p → owner k ≠ p.id) →
    m'.out k = m.out k

/-- The records written by elements of the lattice for a particle with the id `d`, `I d`, belong to it. -/
def Owns (S : Sem E C R) (lat : List E) (I : Int → Prop) (owner : Nat → Int) : Prop :=
  ∀ e ∈ lat, ∀ p : Part C, I p.id → ∀ i r, (S.dispatch e p).write = some (i, r) → owner i = p.id

/-- The particles of the sets have different ids, all with `I`. -/
structure Apart (I : Int → Prop) (sets : List Nat) (m : JobTrack.Mem C R) : Prop where
  ids : ∀ (i j : Nat) (p : Part C), i ∈ sets → Holds m i j p → I p.id
  apart : ∀ (i j : Nat) (p : Part C) (i' j' : Nat) (q : Part C), i ∈ sets → i' ∈ sets → Holds m i j p →
    Holds m i' j' q → p.id = q.id → i = i' ∧ j = j'

/-- Each index once, at least one, and all of them indices of particle sets: what `C74_chosen_partial`
says about the sets of a job. -/
structure SetsOf (sets : List Nat) (m : JobTrack.Mem C R) : Prop where
  any : sets ≠ []
  once : sets.Nodup
  isSet : ∀ i ∈ sets, ∃ ps, m.objs[i]? = some (some ps)

namespace JobTrack

theorem _root_.SixTrack.SetsOf.lt {sets : List Nat} {m : Mem C R} (h : SetsOf sets m) : ∀ i ∈ sets, i < m.objs.length :=
  fun i hi => by
    obtain ⟨ps, hps⟩ := h.isSet i hi
    exact (List.getElem?_eq_some_iff.1 hps).1

theorem turnNum_eq {n : Nat} (h : n < 2 ^ 63) : turnNum n = n := by
  unfold turnNum
  rw [BitVec.toInt_ofNat', Int.bmod_eq_of_le (by omega) (by omega)]

theorem at_holds {m : Mem C R} {i j : Nat} {p : Part C} : m.at i j = some p ↔ Holds m i j p :=
  Mem.at_eq_some

theorem tracked_of_whole {S : Sem E C R} {lat : List E} {F : Track.World C R → Int × Track.World C R}
    {g : Part C → Int × Part C} {ws : Part C → List (Option (Nat × R))} (hF : Split S lat F g ws)
    (hS : Status32 S lat) {keep : Prop} {sets : List Nat} {s : Status} {m m' : Mem C R}
    (h : Whole g ws keep (fun i _ => i ∈ sets) 0 s m m') : Tracked F sets m s m' := by
  have hst : ∀ p o, (F ⟨p, o⟩).1 = (g p).1 := fun p o => by rw [hF.eq]
  have hpt : ∀ p o, (F ⟨p, o⟩).2.part = (g p).2 := fun p o => by rw [hF.eq]
  refine ⟨fun i hi => h.object (fun _ => hi), fun i ps hi hps o => ?_, ?_⟩
  · rw [h.set hps (fun _ => hi)]
    congr 2
    exact List.map_congr_left fun p _ => (hpt p o).symm
  · rw [h.status_zero]
    constructor
    · intro hz i ps hi hps p hp o
      obtain ⟨j, hj⟩ := List.mem_iff_getElem?.1 hp
      rw [hst]
      exact (ofInt_status hS (hF.status p)).1 (hz i j p hi (by rw [Mem.at_some hps]; exact hj))
    · intro hz i j p hi hp
      obtain ⟨ps, hps, hj⟩ := Mem.at_eq_some.1 hp
      rw [ofInt_status hS (hF.status p), ← hst p m.out]
      exact hz i ps hi hps p (List.mem_iff_getElem?.2 ⟨j, hj⟩) m.out

theorem recorded_of_whole {S : Sem E C R} {lat : List E} {F : Track.World C R → Int × Track.World C R}
    {g : Part C → Int × Part C} {ws : Part C → List (Option (Nat × R))} (hF : Split S lat F g ws)
    {I : Int → Prop} {owner : Nat → Int} (hO : Owns S lat I owner) {keep : Prop} {sets : List Nat}
    {s : Status} {m m' : Mem C R} (hm : Apart I sets m)
    (h : Whole g ws keep (fun i _ => i ∈ sets) 0 s m m') : Recorded F owner sets m m' := by
  have hout : ∀ p k, (F ⟨p, m.out⟩).2.out k = (ws p).foldl applyWrite m.out k := fun p k => by
    rw [hF.eq]
  have havoid : ∀ (i j : Nat) (p : Part C) (k : Nat), i ∈ sets → m.at i j = some p →
      owner k ≠ p.id → Avoids (ws p) k := by
    intro i j p k hi hp hk l r hmem hl
    subst hl
    obtain ⟨e, he, q, hq, hw⟩ := hF.writes p _ hmem
    exact hk ((hO e he q (hq ▸ hm.ids i j p hi (at_holds.1 hp)) l r hw).trans hq)
  constructor
  · intro i j p hi hp k hk
    rw [hout]
    refine h.written k i j p hi (at_holds.2 hp) fun i' j' q hi' hne hq => havoid i' j' q k hi' hq ?_
    intro hk'
    obtain ⟨h1, h2⟩ := hm.apart i j p i' j' q hi hi' hp (at_holds.1 hq) (hk.symm.trans hk')
    exact hne ⟨h1.symm, h2.symm⟩
  · intro k hk
    exact h.untouched k fun i j p hi hp => havoid i j p k hi hp (hk i j p hi (at_holds.1 hp))

end JobTrack

/-- C76: `trackUntil` of a job with at least one set. -/
theorem C76_until (S : Sem E C R) (lat : List E) (hS : Status32 S lat) (n : Nat) (hn : n < 2 ^ 63)
    (sets : List Nat) (m : JobTrack.Mem C R) (h : SetsOf sets m) :
    ∃ st m', jobUntil S lat n sets m = .ok (st, m') ∧
      Tracked (trackUntil S lat n) sets m st m' ∧ m'.recs = m.recs ∧
      ∀ (I : Int → Prop) (owner : Nat → Int), Owns S lat I owner → Apart I sets m →
        Recorded (trackUntil S lat n) owner sets m m' := by
  obtain ⟨g, ws, hF⟩ := exists_split (trackUntil_pure S lat (n : Int))
  obtain ⟨st, m', h1, h2⟩ := onSets_whole (untilOne_acts hF) sets m h.any h.once h.lt
    (fun _ _ _ _ _ => trivial)
  refine ⟨st, m', ?_, tracked_of_whole hF hS h2, h2.recs trivial, fun I owner hO hm =>
    recorded_of_whole hF hO hm h2⟩
  unfold jobUntil untilKernel
  rw [turnNum_eq hn]
  exact h1

/-- C76: `trackLine` of a job with at least one set, for a part of the lattice. -/
theorem C76_line (S : Sem E C R) (lat : List E) (hS : Status32 S lat) (b e : Nat) (hb : b ≤ e)
    (he : e ≤ lat.length) (fin : Bool) (sets : List Nat) (m : JobTrack.Mem C R) (h : SetsOf sets m) :
    ∃ st m', jobLine S lat b e fin sets m = .ok (st, m') ∧
      Tracked (trackLine S ((lat.drop b).take (e - b)) fin) sets m st m' ∧ m'.recs = m.recs ∧
      ∀ (I : Int → Prop) (owner : Nat → Int), Owns S lat I owner → Apart I sets m →
        Recorded (trackLine S ((lat.drop b).take (e - b)) fin) owner sets m m' := by
  have hsub : ∀ x ∈ (lat.drop b).take (e - b), x ∈ lat := fun x hx =>
    List.mem_of_mem_drop (List.mem_of_mem_take hx)
  obtain ⟨g, ws, hF⟩ := exists_split (trackLine_pure S ((lat.drop b).take (e - b)) fin)
  obtain ⟨st, m', h1, h2⟩ := onSets_whole (lineOne_acts hF) sets m h.any h.once h.lt
    (fun _ _ _ _ _ => trivial)
  refine ⟨st, m', ?_, tracked_of_whole hF (fun x hx => hS x (hsub x hx)) h2, h2.recs trivial,
    fun I owner hO hm => recorded_of_whole hF (fun x hx => hO x (hsub x hx)) hm h2⟩
  unfold jobLine lineKernel lineOf
  rw [if_pos ⟨hb, he⟩]
  exact h1

/-- C76: element-by-element tracking of a job gives the same particles, status and monitor records as
`trackUntil`.  What is missing is what is missing in `C33_same_particles_partial`: lost particles,
negative numbers, elements that fail without marking the loss. -/
theorem C76_elem_by_elem_partial (S : Sem E C R) (lat : List E) (hS : Status32 S lat)
    (hL : LossIsMarked S lat) (hl : lat ≠ []) {cfg : Cfg} {minP maxP minE maxE minT maxT : Int}
    (hcfg : ConfiguredFor cfg minP maxP minE maxE minT maxT false)
    (hcap : numRecords minP maxP minE maxE minT maxT < 2 ^ 63) (cfgs : List (Option Cfg)) (nn : Int)
    (n : Nat) (hn : n < 2 ^ 63) (sets : List Nat) (m : JobTrack.Mem C R) (h : SetsOf sets m)
    (hm : ∀ (i j : Nat) (p : Part C), i ∈ sets → Holds m i j p →
      p.notLost ∧ 0 ≤ p.id ∧ 0 ≤ p.atElement ∧ 0 ≤ p.atTurn) :
    ∃ st m', jobEbe S lat true (some cfg :: cfgs) nn n sets m = .ok (st, m') ∧
      Tracked (trackUntil S lat n) sets m st m' ∧
      ∀ (I : Int → Prop) (owner : Nat → Int), Owns S lat I owner → Apart I sets m →
        Recorded (trackUntil S lat n) owner sets m m' := by
  obtain ⟨g, ws, hF⟩ := exists_split (trackUntil_pure S lat (n : Int))
  have hA : Acts (ebeOne S (some cfg) nn lat (n : Int))
      (fun p => p.notLost ∧ 0 ≤ p.id ∧ 0 ≤ p.atElement ∧ 0 ≤ p.atTurn) g ws False := by
    intro v hv
    by_cases ha : cfg.outAddr ≠ 0
    · obtain ⟨recs, hr⟩ := C33_same_particles_partial S hcfg hcap nn lat hL hl (n : Int) v hv.1 hv.2.1
        hv.2.2.1 hv.2.2.2
      refine ⟨recs, fun h => h.elim, ?_⟩
      unfold ebeOne
      dsimp only
      rw [if_pos ha, hr]
      obtain ⟨⟨p, o⟩, rs⟩ := v
      rw [hF.eq p o]
    · obtain ⟨recs, -, hr⟩ := untilOne_acts hF v trivial
      refine ⟨recs, fun h => h.elim, ?_⟩
      unfold ebeOne
      dsimp only
      rw [if_neg ha, hr]
  obtain ⟨st, m', h1, h2⟩ := onSets_whole hA sets m h.any h.once h.lt
    (fun i j p hi hp => hm i j p hi (at_holds.1 hp))
  refine ⟨st, m', ?_, tracked_of_whole hF hS h2, fun I owner hO hm => recorded_of_whole hF hO hm h2⟩
  unfold jobEbe
  rw [if_pos rfl, turnNum_eq hn]
  exact h1

/-- The index attributes of the particles, as `ParticleSets` sees them. -/
def attrsOf (m : JobTrack.Mem C R) : List (Option (List Particles.Attr)) :=
  m.objs.map (Option.map (List.map fun p => ⟨p.id, p.atElement, p.atTurn⟩))

/-- C76 with C74: a job that was given the indices `idx`, at least one of them that of a particle set, has
sets as assumed here. -/
theorem C76_chosen (cur : ParticleSets.Sets) (idx : List Nat) (keep : Bool) (m : JobTrack.Mem C R)
    (i : Nat) (ps : List (Part C)) (hi : i ∈ idx) (hp : m.objs[i]? = some (some ps)) :
    SetsOf (ParticleSets.choose cur (attrsOf m) idx keep).2.indices m ∧
      ∀ j, j ∈ (ParticleSets.choose cur (attrsOf m) idx keep).2.indices ↔
        j ∈ idx ∧ ∃ qs, m.objs[j]? = some (some qs) := by
  have hattr : ∀ (j : Nat) (qs : List (Part C)), m.objs[j]? = some (some qs) →
      (attrsOf m)[j]? = some (some (qs.map fun p => ⟨p.id, p.atElement, p.atTurn⟩)) := by
    intro j qs hq
    unfold attrsOf
    rw [List.getElem?_map, hq]; rfl
  have hback : ∀ (j : Nat) (as : List Particles.Attr), (attrsOf m)[j]? = some (some as) →
      ∃ qs, m.objs[j]? = some (some qs) := by
    intro j as ha
    unfold attrsOf at ha
    rw [List.getElem?_map] at ha
    cases ho : m.objs[j]? with
    | none => rw [ho] at ha; cases ha
    | some o =>
      cases o with
      | none => rw [ho] at ha; cases ha
      | some qs => exact ⟨qs, rfl⟩
  obtain ⟨-, hc⟩ := C74_chosen_partial cur (attrsOf m) idx keep i _ hi (hattr i ps hp)
  have hmem : ∀ j, j ∈ (ParticleSets.choose cur (attrsOf m) idx keep).2.indices ↔
      j ∈ idx ∧ ∃ qs, m.objs[j]? = some (some qs) := by
    intro j
    rw [hc.mem j]
    refine and_congr_right fun _ => ⟨fun ⟨as, ha⟩ => hback j as ha, fun ⟨qs, hq⟩ => ⟨_, hattr j qs hq⟩⟩
  refine ⟨⟨List.ne_nil_of_mem ((hmem i).2 ⟨hi, ps, hp⟩), ?_, fun j hj => ((hmem j).1 hj).2⟩, hmem⟩
  exact hc.sorted.imp fun h => Nat.ne_of_lt h

/-- C76: without any set, and without output for element-by-element tracking, nothing is done and the
status says so. -/
theorem C76_refused (S : Sem E C R) (lat : List E) (n b e : Nat) (fin ready : Bool)
    (cfgs : List (Option Cfg)) (nn : Int) (m : JobTrack.Mem C R) :
    jobUntil S lat n [] m = .ok (BitVec.ofInt 32 (-1), m) ∧
    jobLine S lat b e fin [] m = .ok (BitVec.ofInt 32 (-1), m) ∧
    jobEbe S lat ready cfgs nn n [] m = .ok (BitVec.ofInt 32 (-1), m) ∧
    ∀ sets, jobEbe S lat false cfgs nn n sets m = .ok (BitVec.ofInt 32 (-1), m) :=
  ⟨rfl, rfl, by cases ready <;> rfl, fun _ => rfl⟩

/-- C76 fails for an object that is not a particle set (the default set of a job given no indices is
object 0, see `C74_default_violated`): success is reported, and nothing has been tracked. -/
theorem C76_not_a_set_violated (S : Sem E C R) (lat : List E) (n : Nat) (i : Nat) (m : JobTrack.Mem C R)
    (h : m.objs[i]? = some none) : jobUntil S lat n [i] m = .ok (0#32, m) := by
  change kernelOn _ m i 0 1 = _
  unfold kernelOn
  rw [h]; rfl

/-- A job with two sets, and an object of another type between them. -/
def twoSets : JobTrack.Mem Int Int :=
  ⟨[some [⟨1, 0, 0, 0, 1⟩, ⟨2, 1, 0, 0, 1⟩], none, some [⟨5, 2, 0, 0, 1⟩]], fun _ => 7,
    fun _ => ⟨0, 0, 0, 0, 0⟩⟩

theorem twoSets_sets : SetsOf [0, 2] twoSets := by
  refine ⟨by decide, by decide, ?_⟩
  intro i hi
  simp only [List.mem_cons, List.not_mem_nil, or_false] at hi
  rcases hi with rfl | rfl
  · exact ⟨_, rfl⟩
  · exact ⟨_, rfl⟩

theorem toy3_status32 (lat : List Int) : Status32 toy3 lat := fun _ _ _ => by
  simp only [toy3]; decide

theorem toy3_owns (lat : List Int) : Owns toy3 lat (fun _ => True) (fun i => i) := by
  intro e _ p _ i r h
  simp only [toy3] at h
  split at h
  · simp only [Option.some.injEq, Prod.mk.injEq] at h
    dsimp only
    omega
  · cases h

theorem twoSets_holds {i j : Nat} {p : Part Int} (h : Holds twoSets i j p) :
    (i = 0 ∧ j = 0 ∧ p.id = 0) ∨ (i = 0 ∧ j = 1 ∧ p.id = 1) ∨ (i = 2 ∧ j = 0 ∧ p.id = 2) := by
  obtain ⟨ps, h1, h2⟩ := h
  match i, h1 with
  | 0, h1 =>
    cases h1
    match j, h2 with
    | 0, h2 => cases h2; exact Or.inl ⟨rfl, rfl, rfl⟩
    | 1, h2 => cases h2; exact Or.inr (Or.inl ⟨rfl, rfl, rfl⟩)
    | j + 2, h2 => cases h2
  | 1, h1 => cases h1
  | 2, h1 =>
    cases h1
    match j, h2 with
    | 0, h2 => cases h2; exact Or.inr (Or.inr ⟨rfl, rfl, rfl⟩)
    | j + 1, h2 => cases h2
  | i + 3, h1 => cases h1

theorem twoSets_apart : Apart (fun _ => True) [0, 2] twoSets := by
  refine ⟨fun _ _ _ _ _ => trivial, ?_⟩
  intro i j p i' j' q _ _ hp hq hid
  rcases twoSets_holds hp with h | h | h <;> rcases twoSets_holds hq with h' | h' | h' <;> omega

/-- Tracking both sets for two turns through a lattice of two elements: the particles move, the records
of the three particles hold the coordinate before the last element, and the record of no particle is as
before. -/
example : ∃ st m', jobUntil toy3 [2, 3] 2 [0, 2] twoSets = .ok (st, m') ∧ st = 0#32 ∧
    m'.objs = [some [⟨11, 0, 0, 2, 1⟩, ⟨12, 1, 0, 2, 1⟩], none, some [⟨15, 2, 0, 2, 1⟩]] ∧
    m'.out 0 = 8 ∧ m'.out 1 = 9 ∧ m'.out 2 = 12 ∧ m'.out 3 = 7 := by
  obtain ⟨st, m', h1, h2, -, h3⟩ := C76_until toy3 [2, 3] (toy3_status32 _) 2 (by decide) [0, 2] twoSets
    twoSets_sets
  have hr := h3 _ _ (toy3_owns _) twoSets_apart
  have hval : ∀ (c : Int) (d : Nat) (o : Nat → Int),
      (trackUntil toy3 [2, 3] 2 ⟨⟨c, d, 0, 0, 1⟩, o⟩).1 = 0 ∧
      (trackUntil toy3 [2, 3] 2 ⟨⟨c, d, 0, 0, 1⟩, o⟩).2.part = ⟨c + 2 + 3 + 2 + 3, d, 0, 2, 1⟩ ∧
      (trackUntil toy3 [2, 3] 2 ⟨⟨c, d, 0, 0, 1⟩, o⟩).2.out d = c + 2 + 3 + 2 := by
    intro c d o
    simp [trackUntil, untilLoop, turnElems, toy3, Sem.run, applyPart, World.map, Part.incElem,
      Sem.endTurn, applyWrite, Part.notLost, Particles.setAt]
  refine ⟨st, m', h1, ?_, ?_, ?_, ?_, ?_, ?_⟩
  · refine h2.status.2 fun i ps hi hps p hp o => ?_
    simp only [List.mem_cons, List.not_mem_nil, or_false] at hi
    rcases hi with rfl | rfl
    · cases hps
      simp only [List.mem_cons, List.not_mem_nil, or_false] at hp
      rcases hp with rfl | rfl
      · exact (hval 1 0 o).1
      · exact (hval 2 1 o).1
    · cases hps
      simp only [List.mem_cons, List.not_mem_nil, or_false] at hp
      subst hp
      exact (hval 5 2 o).1
  · apply List.ext_getElem?
    intro i
    match i with
    | 0 =>
      rw [h2.each 0 _ (by decide) rfl (fun _ => 0)]
      change some (some [(trackUntil toy3 [2, 3] 2 ⟨⟨1, (0 : Nat), 0, 0, 1⟩, _⟩).2.part,
        (trackUntil toy3 [2, 3] 2 ⟨⟨2, (1 : Nat), 0, 0, 1⟩, _⟩).2.part]) = _
      rw [(hval 1 0 _).2.1, (hval 2 1 _).2.1]
      rfl
    | 1 => rw [h2.others 1 (by decide)]; rfl
    | 2 =>
      rw [h2.each 2 _ (by decide) rfl (fun _ => 0)]
      change some (some [(trackUntil toy3 [2, 3] 2 ⟨⟨5, (2 : Nat), 0, 0, 1⟩, _⟩).2.part]) = _
      rw [(hval 5 2 _).2.1]
      rfl
    | i + 3 => rw [h2.others (i + 3) (by simp)]; rfl
  · exact (hr.own 0 0 ⟨1, 0, 0, 0, 1⟩ (by decide) ⟨_, rfl, rfl⟩ 0 rfl).trans (hval 1 0 _).2.2
  · exact (hr.own 0 1 ⟨2, 1, 0, 0, 1⟩ (by decide) ⟨_, rfl, rfl⟩ 1 rfl).trans (hval 2 1 _).2.2
  · exact (hr.own 2 0 ⟨5, 2, 0, 0, 1⟩ (by decide) ⟨_, rfl, rfl⟩ 2 rfl).trans (hval 5 2 _).2.2
  · refine hr.others 3 fun i j p _ hp => ?_
    rcases twoSets_holds hp with h | h | h <;> omega

/-- C76 fails for a number of turns of 2^63 or more: it becomes negative, nothing is tracked and success is
reported. -/
theorem C76_turns_violated :
    jobUntil toy3 [2, 3] (2 ^ 63) [0, 2] twoSets = .ok (0#32, twoSets) := by
  have h : turnNum (2 ^ 63) = -2 ^ 63 := by decide
  unfold jobUntil
  rw [h]
  have hs : ∀ (c d : Int) (v : Nat → Int), trackUntil toy3 [2, 3] (-9223372036854775808)
      ⟨⟨c, d, 0, 0, 1⟩, v⟩ =
      (0, ⟨⟨c, d, 0, 0, 1⟩, v⟩) := by
    intro c d v
    simp [trackUntil]
  simp only [onSets, overSets, untilKernel, kernelOn, twoSets, loopSet]
  simp [hs, loop, runOne, untilOne]

/-- The sets of a job that was given the indices 2, 1, 0 and 5 of this buffer. -/
example : SetsOf (ParticleSets.choose ⟨[], [], [], 0, 0, 0⟩ (attrsOf twoSets) [2, 1, 0, 5] false).2.indices
    twoSets :=
  (C76_chosen _ _ _ _ 2 _ (by decide) rfl).1

/-- The third set of three elements, without the first element. -/
example : ∃ st m', jobLine toy3 [2, 3, 4] 1 3 true [2] twoSets = .ok (st, m') ∧
    Tracked (trackLine toy3 [3, 4] true) [2] twoSets st m' := by
  obtain ⟨st, m', h1, h2, -⟩ := C76_line toy3 [2, 3, 4] (toy3_status32 _) 1 3 (by decide) (by decide) true
    [2] twoSets ⟨by decide, by decide, fun i hi => by
      rw [List.mem_singleton.1 hi]; exact ⟨_, rfl⟩⟩
  exact ⟨st, m', h1, h2⟩

/-- Element-by-element tracking of both sets. -/
example : ∃ st m', jobEbe toy3 [2, 3] true [some (exampleCfg false)] 24 2 [0, 2] twoSets = .ok (st, m') ∧
    Tracked (trackUntil toy3 [2, 3] (2 : Nat)) [0, 2] twoSets st m' := by
  obtain ⟨st, m', h1, h2, -⟩ := C76_elem_by_elem_partial toy3 [2, 3] (toy3_status32 _)
    (fun _ _ p hp h => absurd h (by
      have : p.state = 1 := hp
      simp [toy3, this])) (by decide) (exampleCfg_configured false) (by decide) [] 24 2
    (by decide) [0, 2] twoSets twoSets_sets (fun i j p _ hp => by
      obtain ⟨ps, h1, h2⟩ := hp
      have hps : ps = [⟨1, 0, 0, 0, 1⟩, ⟨2, 1, 0, 0, 1⟩] ∨ ps = [⟨5, 2, 0, 0, 1⟩] := by
        match i, h1 with
        | 0, h1 => cases h1; exact Or.inl rfl
        | 1, h1 => cases h1
        | 2, h1 => cases h1; exact Or.inr rfl
        | i + 3, h1 => cases h1
      have hp := List.mem_of_getElem? h2
      rcases hps with rfl | rfl <;>
        · simp only [List.mem_cons, List.not_mem_nil, or_false] at hp
          rcases hp with rfl | rfl <;> decide)
  exact ⟨st, m', h1, h2⟩

end SixTrack
