import Verif.OutputLemmas
import Verif.Props.ElemByElem
import Verif.Props.MonitorOutput

/-!
# Property C71: preparing the output of a tracking run
-/

namespace SixTrack
open Monitor EBE Output

/-- The numbers of particles in the objects for the beam monitors: one object for every monitor that
starts at or after the first turn and stores something, with a record per particle and store. -/
def monitorRecords (es : List Elem) (minP maxP minT : Int) : List (Option Nat) :=
  es.filterMap fun e => match e with
    | .monitor m => if minT ≤ m.start ∧ 0 < m.numStores
        then some (some ((maxP - minP + 1) * m.numStores).toNat) else none
    | .other => none

/-- The ranges are usable: particles and elements from id 0 on, and no number of records exceeds
what 64 bits can hold. -/
structure Usable (es : List Elem) (minP maxP minE maxE minT : Int) (untilTurn : Nat) : Prop where
  p : 0 ≤ minP ∧ minP ≤ maxP ∧ maxP < 2^63 - 1
  e : 0 ≤ minE ∧ minE ≤ maxE ∧ maxE < 2^63 - 1
  t : 0 ≤ minT ∧ untilTurn < 2^63
  ebe : (maxP - minP + 1) * (maxE - minE + 1) * (untilTurn - minT) < 2^63
  mon : ∀ m, Elem.monitor m ∈ es → (maxP - minP + 1) * m.numStores < 2^63

/-- three drifts and two monitors, of which the second one starts in turn 5 -/
def outputLattice : List Elem :=
  [.other, .monitor ⟨2, 0, 1, 77, -1, -1, 0, 1⟩, .other, .monitor ⟨3, 5, 1, 0, -1, -1, 1, 1⟩, .other]

theorem outputLattice_usable : Usable outputLattice 0 1 0 4 0 10 := by
  refine ⟨by decide, by decide, by decide, by decide, ?_⟩
  intro m hm
  simp [outputLattice] at hm
  rcases hm with rfl | rfl <;> decide

/-- **C71 (preparing succeeds)** for usable ranges. -/
theorem C71_prepare_succeeds {es : List Elem} {outs : List OutObj} {minP maxP minE maxE minT : Int}
    {untilTurn : Nat} {fresh : Nat → Nat} (hu : Usable es minP maxP minE maxE minT untilTurn) :
    ∃ r, prepare es outs minP maxP minE maxE minT untilTurn fresh = .ok r ∧ r.status = SUCCESS :=
  prepare_ok ⟨hu.p.1, hu.p.2.1⟩ ⟨hu.e.1, hu.e.2.1⟩ hu.t.1 hu.p.2.2 hu.e.2.2 hu.t.2
    (by have := hu.ebe; omega)

example : ∃ r, prepare outputLattice [] 0 1 0 4 0 10 (5000 + ·) = .ok r ∧ r.status = SUCCESS :=
  C71_prepare_succeeds outputLattice_usable

/-- **C71 (what is prepared)**: the objects that were in the output buffer stay; if the
element-by-element output is to reach beyond the first turn, the next object is for it, with one
record for every particle, element and turn up to that turn; then follow the objects of the active
monitors in the order of the lattice.  The offsets handed back are those of the two groups. -/
theorem C71_prepared {es : List Elem} {outs : List OutObj} {minP maxP minE maxE minT : Int}
    {untilTurn : Nat} {fresh : Nat → Nat} {r : Prepared}
    (hu : Usable es minP maxP minE maxE minT untilTurn)
    (h : prepare es outs minP maxP minE maxE minT untilTurn fresh = .ok r) :
    ∃ ebe mons, r.outs = outs ++ ebe ++ mons ∧ r.monOffset = (outs ++ ebe).length ∧
      mons.map (·.particles) = monitorRecords es minP maxP minT ∧
      (minT < untilTurn → r.ebeOffset = outs.length ∧ r.maxTurn = untilTurn - 1 ∧
        ebe.map (·.particles) =
          [some ((maxP - minP + 1) * (maxE - minE + 1) * (untilTurn - minT)).toNat]) ∧
      (untilTurn ≤ minT → ebe = []) := by
  obtain ⟨r', h', hs⟩ := C71_prepare_succeeds (outs := outs) (fresh := fresh) hu
  rw [h] at h'
  obtain rfl := Res.ok.inj h'
  obtain ⟨hv, -, hcase⟩ := prepare_success h hs
  have hmon : (prepareLoop minP maxP minT (fun k => fresh (k + 1)) es 0).2.map (·.particles) =
      monitorRecords es minP maxP minT := by
    rw [prepareLoop_particles, monitorRecords]
    apply List.filterMap_congr
    intro e he
    cases e with
    | other => rfl
    | monitor m =>
      simp only
      split
      · rename_i ha
        have hb := hu.mon m he
        have hge : 0 ≤ (maxP - minP + 1) * m.numStores := Int.mul_nonneg (by omega) (by omega)
        unfold mulU64
        rw [show 1 + maxP - minP = maxP - minP + 1 by omega,
          Int.emod_eq_of_lt hge (by omega)]
      · rfl
  rcases hcase with ⟨ht, he0, he1, hti, hmt, n, hn, ho, h1, h2⟩ | ⟨ht, ho, -, h2, -⟩
  · refine ⟨[_], _, ho, by simpa using h2, hmon, ?_, by omega⟩
    intro _
    have hi := toIndex_pred (n := untilTurn) (by have := hu.t.1; omega) (by have := hu.t.2; omega)
    refine ⟨h1, by rw [hmt, hi], ?_⟩
    rw [hi] at hn
    have hb := hu.ebe
    have e : (untilTurn : Int) - 1 - minT + 1 = untilTurn - minT := by omega
    rw [storedNum_ok ⟨hu.p.1, hu.p.2.1⟩ ⟨hu.e.1, hu.e.2.1⟩ ⟨hu.t.1, by omega⟩ hu.p.2.2 hu.e.2.2
      (by have := hu.t.2; omega) (by rw [e]; omega)] at hn
    obtain rfl := Res.ok.inj hn
    simp [e]
  · exact ⟨[], _, by simpa using ho, by simpa using h2, hmon, fun hc => absurd hc ht, fun _ => rfl⟩

example : ∃ r, prepare outputLattice [⟨77, some 9⟩] 0 1 0 4 0 10 (5000 + ·) = .ok r ∧
    r.outs = [⟨77, some 9⟩, ⟨5000, some 100⟩, ⟨5001, some 4⟩, ⟨5002, some 6⟩] ∧
    r.ebeOffset = 1 ∧ r.monOffset = 2 ∧ r.maxTurn = 9 := ⟨_, rfl, by decide, rfl, rfl, rfl⟩

/-- **C71 (every record fits)**: a configuration for the same ranges, up to the turn that preparing
hands back, can be given the prepared object; every particle, element and turn of the range then has
a record inside that object, and different ones have different records. -/
theorem C71_records_fit {es : List Elem} {outs : List OutObj} {minP maxP minE maxE minT : Int}
    {untilTurn : Nat} {fresh : Nat → Nat} {r : Prepared} {cfg cfg' : Cfg} {roll : Bool}
    (hu : Usable es minP maxP minE maxE minT untilTurn)
    (h : prepare es outs minP maxP minE maxE minT untilTurn fresh = .ok r)
    (ht : minT < untilTurn) (hc : ConfiguredFor cfg minP maxP minE maxE minT r.maxTurn roll)
    (ha : assignEbe cfg r.outs r.ebeOffset = (SUCCESS, cfg')) :
    ∃ o n, r.outs[r.ebeOffset]? = some o ∧ cfg'.outAddr = o.addr ∧ o.particles = some n ∧
      cfg'.outStoreNum = .ok n ∧
      ∀ p e t, minP ≤ p → p ≤ maxP → minE ≤ e → e ≤ maxE → minT ≤ t → t < untilTurn →
        ∃ i, cfg'.storeIndex p e t = .ok i ∧ 0 ≤ i ∧ i < n ∧
        ∀ p' e' t', minP ≤ p' → p' ≤ maxP → minE ≤ e' → e' ≤ maxE → minT ≤ t' → t' < untilTurn →
          cfg'.storeIndex p' e' t' = .ok i → p' = p ∧ e' = e ∧ t' = t := by
  obtain ⟨ebe, mons, h1, -, -, h2, -⟩ := C71_prepared hu h
  obtain ⟨h3, h4, h5⟩ := h2 ht
  have hlen : ebe.length = 1 := by
    have := congrArg List.length h5; simpa using this
  obtain ⟨o, rfl⟩ : ∃ o, ebe = [o] := List.length_eq_one_iff.1 hlen
  simp only [List.map_cons, List.map_nil, List.cons.injEq, and_true] at h5
  have hget : r.outs[r.ebeOffset]? = some o := by rw [h1, h3]; simp
  unfold assignEbe at ha
  rw [hget] at ha
  simp only [h5, Option.isSome_some, if_true, Prod.mk.injEq, true_and] at ha
  have hb := hu.ebe
  have hu' := hu
  obtain ⟨⟨p0, p1, p2⟩, ⟨e0, e1, e2⟩, ⟨t0, t1⟩, -, -⟩ := hu'
  have hnn : 0 ≤ (maxP - minP + 1) * (maxE - minE + 1) * (untilTurn - minT) :=
    Int.mul_nonneg (Int.mul_nonneg (by omega) (by omega)) (by omega)
  have hnum : numRecords minP maxP minE maxE minT r.maxTurn =
      (maxP - minP + 1) * (maxE - minE + 1) * (untilTurn - minT) := by
    unfold numRecords
    rw [h4, show (untilTurn : Int) - 1 - minT + 1 = untilTurn - minT by omega]
  have hsto : ∀ p e t, cfg'.storeIndex p e t = cfg.storeIndex p e t := by
    intro p e t; rw [← ha]; rfl
  refine ⟨o, _, hget, by rw [← ha], h5, ?_, ?_⟩
  · have hw := hc
    obtain ⟨hP, hE, hT, c0, hi⟩ := hc
    obtain ⟨w, -, -, c1, c2, c3, c4, c5, c6⟩ := initDetailed_wf hP hE hT hi
    have hA : 0 ≤ (maxP - minP + 1) * (maxE - minE + 1) := Int.mul_nonneg (by omega) (by omega)
    have hle : (maxP - minP + 1) * (maxE - minE + 1) ≤
        (maxP - minP + 1) * (maxE - minE + 1) * (untilTurn - minT) := by
      have h7 : (maxP - minP + 1) * (maxE - minE + 1) * 1 ≤
          (maxP - minP + 1) * (maxE - minE + 1) * (untilTurn - minT) :=
        Int.mul_le_mul_of_nonneg_left (by omega) hA
      omega
    have hprod : cfg'.numP * cfg'.numE = (maxP - minP + 1) * (maxE - minE + 1) := by
      rw [← ha]
      show cfg.numP * cfg.numE = _
      rw [w.np, w.ne, c1, c2, c3, c4]
    have hT' : cfg'.numT = untilTurn - minT := by
      rw [← ha]
      show cfg.numT = _
      rw [w.nt, c5, c6, h4]; omega
    unfold Cfg.outStoreNum
    rw [hprod, i64_ok (by unfold I64; omega), Res.ok_bind, hT', i64_ok (by unfold I64; omega)]
    congr 1
    omega
  · intro p e t hp1 hp2 he1 he2 ht1 ht2
    obtain ⟨i, hi1, hi2, hi3⟩ := C19_record_in_output hc (by rw [hnum]; exact hb) ⟨hp1, hp2⟩
      ⟨he1, he2⟩ ⟨ht1, by rw [h4]; omega⟩
    refine ⟨i, by rw [hsto]; exact hi1, hi2, by rw [hnum] at hi3; omega, ?_⟩
    intro p' e' t' hp1' hp2' he1' he2' ht1' ht2' hi'
    rw [hsto] at hi'
    exact C19_records_distinct hc (by rw [hnum]; exact hb) ⟨hp1', hp2'⟩ ⟨he1', he2'⟩
      ⟨ht1', by rw [h4]; omega⟩ ⟨hp1, hp2⟩ ⟨he1, he2⟩ ⟨ht1, by rw [h4]; omega⟩ (hi'.trans hi1.symm)

/-- a configuration for the example, up to turn 9 -/
def outputCfg : Cfg :=
  { order := 0, numP := 2, numE := 5, numT := 10, minP := 0, minE := 0, minT := 0,
    maxP := 1, maxE := 4, maxT := 9, rolling := 1, outAddr := 0 }

theorem outputCfg_configured : ConfiguredFor outputCfg 0 1 0 4 0 9 true := by
  refine ⟨by decide, by decide, by decide,
    { order := 7, numP := 9, numE := 9, numT := 9, minP := 0, minE := 0, minT := 0,
      maxP := 0, maxE := 0, maxT := 0, rolling := 1, outAddr := 77 }, by decide⟩

example : ∃ r cfg cfg', prepare outputLattice [⟨77, some 9⟩] 0 1 0 4 0 10 (5000 + ·) = .ok r ∧
    ConfiguredFor cfg 0 1 0 4 0 r.maxTurn true ∧
    assignEbe cfg r.outs r.ebeOffset = (SUCCESS, cfg') ∧ cfg'.outAddr = 5000 ∧
    cfg'.storeIndex 1 4 9 = .ok 99 := by
  exact ⟨_, outputCfg, _, rfl, outputCfg_configured, rfl, by decide, by decide⟩

/-! ## which output is required -/

/-- **C71 (the flag of the element-by-element output)** is set exactly if an object for it is
prepared, for a lattice that is not empty. -/
theorem C71_ebe_flag {es : List Elem} {outs : List OutObj} {minP maxP minE maxE minT maxT : Int}
    {untilTurn : Nat} {fresh : Nat → Nat} {r : Prepared}
    (hu : Usable es minP maxP minE maxE minT untilTurn) (hT : minT ≤ maxT) (hne : es ≠ [])
    (h : prepare es outs minP maxP minE maxE minT untilTurn fresh = .ok r) :
    (required es minP maxP minE maxE minT maxT untilTurn).ebe = true ↔
      r.outs.length = outs.length + 1 + (monitorRecords es minP maxP minT).length := by
  obtain ⟨ebe, mons, h1, -, h2, h3, h4⟩ := C71_prepared hu h
  unfold required
  rw [if_pos ⟨hu.p.1, hu.p.2.1, hu.e.1, hu.e.2.1, hu.t.1, hT⟩]
  have hm : mons.length = (monitorRecords es minP maxP minT).length := by
    rw [← h2, List.length_map]
  have hl : 0 < es.length := List.length_pos_iff.2 hne
  rw [h1, List.length_append, List.length_append, hm]
  constructor
  · intro hf
    have ht : minT < untilTurn := (of_decide_eq_true hf).1
    have := congrArg List.length (h3 ht).2.2
    simp only [List.length_map, List.length_cons, List.length_nil] at this
    omega
  · intro hlen
    apply decide_eq_true
    refine ⟨?_, hl⟩
    apply Classical.byContradiction
    intro hc
    rw [h4 (by omega)] at hlen
    simp at hlen

example : (required outputLattice 0 1 0 4 0 0 10).ebe = true ∧
    (required outputLattice 0 1 0 4 0 0 0).ebe = false := by decide

/-- **C71 (the flag of the monitors), part**: if every monitor that stores something starts at or
after the first turn, the flag is set exactly if an object for a monitor is prepared.  Missing:
monitors that start earlier, see `C71_monitor_flag_violated`. -/
theorem C71_monitor_flag_partial {es : List Elem} {minP maxP minE maxE minT maxT : Int}
    {untilTurn : Nat} (hu : Usable es minP maxP minE maxE minT untilTurn) (hT : minT ≤ maxT)
    (hs : ∀ m, Elem.monitor m ∈ es → 0 < m.numStores → minT ≤ m.start) :
    (required es minP maxP minE maxE minT maxT untilTurn).monitors = true ↔
      monitorRecords es minP maxP minT ≠ [] := by
  unfold required
  rw [if_pos ⟨hu.p.1, hu.p.2.1, hu.e.1, hu.e.2.1, hu.t.1, hT⟩]
  simp only
  rw [anyStores_iff, ne_eq, List.eq_nil_iff_forall_not_mem, not_forall]
  simp only [not_not]
  constructor
  · rintro ⟨m, hm, hn⟩
    refine ⟨some ((maxP - minP + 1) * m.numStores).toNat, ?_⟩
    unfold monitorRecords
    rw [List.mem_filterMap]
    exact ⟨_, hm, by simp [hs m hm hn, hn]⟩
  · rintro ⟨b, hb⟩
    unfold monitorRecords at hb
    rw [List.mem_filterMap] at hb
    obtain ⟨e, he, hb⟩ := hb
    cases e with
    | other => simp at hb
    | monitor m =>
      simp only at hb
      split at hb
      · rename_i hc; exact ⟨m, he, hc.2⟩
      · cases hb

example : (required outputLattice 0 1 0 4 0 0 10).monitors = true ∧
    monitorRecords outputLattice 0 1 0 = [some 4, some 6] := by decide

/-- **C71 (the flag of the monitors) is wrong in general**: a monitor that starts before the first
turn sets the flag, preparing succeeds, and the output buffer stays empty. -/
theorem C71_monitor_flag_violated :
    ∃ es r, Usable es 0 1 0 0 5 0 ∧ (required es 0 1 0 0 5 5 0).monitors = true ∧
      prepare es [] 0 1 0 0 5 0 id = .ok r ∧ r.status = SUCCESS ∧ r.outs = [] := by
  refine ⟨[.monitor ⟨20, 0, 1, 0, -1, -1, 0, 1⟩], _, ⟨by decide, by decide, by decide, by decide,
    ?_⟩, by decide, rfl, by decide, by decide⟩
  intro m hm
  simp at hm
  subst hm
  decide

/-! ## the predicted size -/

/-- **C71 (prediction), part**: if every monitor starts at or after the first turn, the predicted
numbers of objects, slots and data pointers are those of the objects that are prepared.  Missing:
monitors that start earlier (`C26_violated`). -/
theorem C71_prediction_partial {es : List Elem} {outs : List OutObj}
    {minP maxP minE maxE minT maxT : Int} {untilTurn : Nat} {fresh : Nat → Nat} {r : Prepared}
    (hu : Usable es minP maxP minE maxE minT untilTurn) (hT : minT ≤ maxT)
    (hstart : ∀ m, Elem.monitor m ∈ es → minT ≤ m.start ∧ 0 ≤ m.numStores)
    (h : prepare es outs minP maxP minE maxE minT untilTurn fresh = .ok r)
    (slots : Nat → Nat) (nptrs : Nat) :
    ∃ new : List Nat, (r.outs.drop outs.length).map (·.particles) = new.map some ∧
      predictAll es minP maxP minE maxE minT maxT untilTurn slots nptrs =
        .ok (some (new.length, (new.map slots).sum, nptrs * new.length)) := by
  obtain ⟨ebe, mons, h1, -, h2, h3, h4⟩ := C71_prepared hu h
  have hp : prepareDetailed es outs minP maxP minT fresh =
      (SUCCESS, (prepareLoop minP maxP minT fresh es 0).1,
        outs ++ (prepareLoop minP maxP minT fresh es 0).2, outs.length) := by
    unfold prepareDetailed
    rw [if_neg (by have := hu.p; have := hu.t; omega)]
  obtain ⟨new, -, hnew, hpred⟩ := C26_prediction_partial hp (by
    intro m hm
    have := hstart m hm
    have := hu.mon m hm
    omega) slots nptrs
  rw [List.drop_left] at hnew
  have hmons : mons.map (·.particles) = new.map some := by
    rw [h2, ← hnew, prepareLoop_particles, monitorRecords]
    apply List.filterMap_congr
    intro e he
    cases e with
    | other => rfl
    | monitor m =>
      simp only
      split
      · have hb := hu.mon m he
        have := hu.p
        have hge : 0 ≤ (maxP - minP + 1) * m.numStores := Int.mul_nonneg (by omega) (by omega)
        unfold mulU64
        rw [show 1 + maxP - minP = maxP - minP + 1 by omega, Int.emod_eq_of_lt hge (by omega)]
      · rfl
  have hdrop : r.outs.drop outs.length = ebe ++ mons := by
    rw [h1, List.append_assoc, List.drop_left]
  rw [hdrop, List.map_append, hmons]
  have hv : minP ≤ maxP ∧ minT ≤ maxT ∧ -1 < minP ∧ -1 < minT := by
    have := hu.p; have := hu.t; omega
  by_cases ht : minT < untilTurn
  · obtain ⟨-, -, h5⟩ := h3 ht
    refine ⟨((maxP - minP + 1) * (maxE - minE + 1) * (untilTurn - minT)).toNat :: new, ?_, ?_⟩
    · rw [h5]; simp
    · have e : (untilTurn : Int) - 1 - minT + 1 = untilTurn - minT := by omega
      have hi := toIndex_pred (n := untilTurn) (by have := hu.t.1; omega)
        (by have := hu.t.2; omega)
      have hpos : 0 < (maxP - minP + 1) * (maxE - minE + 1) * (untilTurn - minT) :=
        Int.mul_pos (Int.mul_pos (by have := hu.p; omega) (by have := hu.e; omega)) (by omega)
      have he : predictEbe minP maxP minE maxE minT maxT untilTurn slots nptrs =
          .ok (some (1, slots ((maxP - minP + 1) * (maxE - minE + 1) *
            (untilTurn - minT)).toNat, nptrs)) := by
        unfold predictEbe
        rw [if_pos hv, if_pos ht, hi, storedNum_ok ⟨hu.p.1, hu.p.2.1⟩ ⟨hu.e.1, hu.e.2.1⟩
          ⟨hu.t.1, by omega⟩ hu.p.2.2 hu.e.2.2 (by have := hu.t.2; omega)
          (by rw [e]; have := hu.ebe; omega), e, Res.ok_bind, if_pos (by omega)]
        rfl
      unfold predictAll predictEbePart
      rw [if_pos (by have := hu.t; omega), he, Res.ok_bind, hpred]
      simp only [Res.pure_eq, Option.bind_some, Option.map_some, List.length_cons,
        List.map_cons, List.sum_cons, Nat.mul_add, Nat.mul_one, Nat.add_comm]
  · have h5 := h4 (by omega)
    subst h5
    refine ⟨new, by simp, ?_⟩
    have he : predictEbePart minP maxP minE maxE minT maxT untilTurn slots nptrs =
        .ok (some (0, 0, 0)) := by
      unfold predictEbePart
      split
      · unfold predictEbe
        rw [if_pos hv, if_neg ht]; rfl
      · rfl
    unfold predictAll
    rw [he, Res.ok_bind, hpred]
    simp [Res.pure_eq]

example : predictAll outputLattice 0 1 0 4 0 0 10 (fun n => 10 + 4 * n) 21 =
    .ok (some (3, 30 + 4 * (100 + 4 + 6), 63)) := by decide

/-! ## the range of the element ids -/

/-- The ids of the elements: an object gets the id of its place in the buffer. -/
def elementIds (types : List Nat) (start : Int) : List Int :=
  (types.zipIdx.filter fun x => countsAsElement x.1).map fun x => start + x.2

/-- **C71 (the range of the element ids), part**: if only elements follow the first element, the
range covers the ids of all of them and is the smallest such range that contains the one passed
in.  Missing: other objects between the elements, see `C71_element_range_violated`. -/
theorem C71_element_range_partial {types : List Nat} {lo hi start : Int} {pre els : List Nat}
    (h0 : 0 ≤ start) (ht : types = pre ++ els) (hpre : ∀ x ∈ pre, countsAsElement x = false)
    (hels : ∀ x ∈ els, countsAsElement x = true) (hne : els ≠ []) :
    ∃ lo' hi', findElementRange types lo hi start = some (lo', hi', (elementIds types start).length) ∧
      (∀ id, id ∈ elementIds types start → lo' ≤ id ∧ id ≤ hi') ∧ lo' ≤ lo ∧ hi ≤ hi' ∧
      (lo' = lo ∨ lo' ∈ elementIds types start) ∧ (hi' = hi ∨ hi' ∈ elementIds types start) := by
  obtain ⟨t, rest, rfl⟩ := List.ne_nil_iff_exists_cons.1 hne
  have hrest : rest.filter countsAsElement = rest :=
    List.filter_eq_self.2 fun x hx => hels x (List.mem_cons_of_mem _ hx)
  have hids : elementIds types start =
      (List.range (rest.length + 1)).map fun (i : Nat) => start + pre.length + i := by
    have key : ∀ (els : List Nat) (k : Nat), (∀ x ∈ els, countsAsElement x = true) →
        ((els.zipIdx k).filter fun x => countsAsElement x.1).map (fun x => start + (x.2 : Int)) =
          (List.range els.length).map fun (i : Nat) => start + k + i := by
      intro els
      induction els with
      | nil => intro k _; rfl
      | cons a as ih =>
        intro k hk
        rw [List.zipIdx_cons, List.filter_cons_of_pos (by exact hk a (by simp)), List.map_cons,
          ih _ fun x hx => hk x (List.mem_cons_of_mem _ hx), List.length_cons,
          List.range_succ_eq_map, List.map_cons, List.map_map]
        congr 1
        · simp
        · apply List.map_congr_left
          intro i _
          simp only [Function.comp]
          omega
    unfold elementIds
    rw [ht, List.zipIdx_append, List.filter_append, List.filter_eq_nil_iff.2, List.nil_append,
      key _ _ hels]
    · simp
    · intro x hx
      have := hpre x.1 (List.fst_mem_of_mem_zipIdx hx)
      simp [this]
  refine ⟨min lo (start + pre.length), max hi (start + pre.length + rest.length), ?_, ?_⟩
  · rw [findElementRange_eq h0 ht hpre (hels t (by simp)), hrest, hids]
    simp only [List.length_map, List.length_range]
    rw [Nat.add_comm]
  · simp only [hids, List.mem_map, List.mem_range]
    refine ⟨?_, by omega, by omega, ?_, ?_⟩
    · rintro id ⟨i, hi, rfl⟩
      omega
    · rcases Int.le_total lo (start + pre.length) with h | h
      · left; omega
      · right; exact ⟨0, by omega, by omega⟩
    · rcases Int.le_total hi (start + pre.length + rest.length) with h | h
      · right; exact ⟨rest.length, by omega, by omega⟩
      · left; omega

example : findElementRange [1, 2, 3, 4] 100 (-1) 7 = some (8, 10, 3) ∧
    elementIds [1, 2, 3, 4] 7 = [8, 9, 10] := by decide

/-- **C71 (the range of the element ids)**: without elements the call fails. -/
theorem C71_element_range_empty {types : List Nat} {lo hi start : Int}
    (h : elementIds types start = []) : findElementRange types lo hi start = none := by
  apply findElementRange_none
  intro t ht
  unfold elementIds at h
  rw [List.map_eq_nil_iff, List.filter_eq_nil_iff] at h
  obtain ⟨i, hi⟩ := List.getElem_of_mem ht
  obtain ⟨hi, rfl⟩ := hi
  have := h (types[i], i) (by rw [List.mk_mem_zipIdx_iff_getElem?]; simp [hi])
  simpa using this

example : findElementRange [1, 65534] 100 (-1) 7 = none := by decide

/-- **C71 (the range of the element ids) is wrong in general**: after an object that is not an
element the ids of the elements lie outside. -/
theorem C71_element_range_violated :
    ∃ types : List Nat, findElementRange types 100 (-1) 0 = some (0, 1, 2) ∧
      (2 : Int) ∈ elementIds types 0 := ⟨[2, 1, 2], by decide, by decide⟩

/-! ## assigning the output -/

/-- **C71 (assigning the element-by-element output)**: it succeeds exactly if the object at the offset is a
particles object; then the configuration holds its address, otherwise the configuration stays as it is. -/
theorem C71_assign (cfg : Cfg) (outs : List OutObj) (offset : Nat) :
    ((assignEbe cfg outs offset).1 = SUCCESS ↔ ∃ o n, outs[offset]? = some o ∧ o.particles = some n) ∧
    (∀ o n, outs[offset]? = some o → o.particles = some n →
      assignEbe cfg outs offset = (SUCCESS, { cfg with outAddr := o.addr })) ∧
    ((¬ ∃ o n, outs[offset]? = some o ∧ o.particles = some n) →
      assignEbe cfg outs offset = (FAILURE, cfg)) := by
  have hpos : ∀ o n, outs[offset]? = some o → o.particles = some n →
      assignEbe cfg outs offset = (SUCCESS, { cfg with outAddr := o.addr }) := by
    intro o n ho hn
    unfold assignEbe
    rw [ho]; simp [hn]
  have hneg : (¬ ∃ o n, outs[offset]? = some o ∧ o.particles = some n) →
      assignEbe cfg outs offset = (FAILURE, cfg) := by
    intro h
    unfold assignEbe
    cases ho : outs[offset]? with
    | none => rfl
    | some o =>
      cases hn : o.particles with
      | none => simp [hn]
      | some n => exact absurd ⟨o, n, ho, hn⟩ h
  refine ⟨⟨fun h => ?_, fun ⟨o, n, ho, hn⟩ => by rw [hpos o n ho hn]⟩, hpos, hneg⟩
  by_contra hc
  rw [hneg hc] at h
  exact absurd (show FAILURE = SUCCESS from h) (by decide)

example : ∃ o n, ([⟨8, none⟩, ⟨16, some 3⟩] : List OutObj)[1]? = some o ∧ o.particles = some n :=
  ⟨⟨16, some 3⟩, 3, rfl, rfl⟩

end SixTrack
