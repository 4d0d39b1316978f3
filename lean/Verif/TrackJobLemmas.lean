import Verif.TrackJob
import Verif.Props.Output

/-!
# Lemmas about the output side of a track job
-/

namespace SixTrack.TrackJob
open Monitor EBE Output

@[simp] theorem get_set (w : World) (r : Ref) (os : List OutObj) : (w.set r os).get r = os := by
  cases r <;> simp [World.set, World.get]

@[simp] theorem get_lattice (w : World) (r : Ref) (es : List Elem) :
    World.get { w with lattice := es } r = w.get r := by
  cases r <;> rfl

/-- the lattice has a monitor that stores something -/
def Storing (es : List Elem) : Prop := ∃ m, Elem.monitor m ∈ es ∧ 0 < m.numStores

/-- the ranges of a job are usable for a lattice -/
def Fits (j : Job) (es : List Elem) (untilTurn : Nat) : Prop :=
  Usable es j.rng.minP j.rng.maxP j.rng.minE j.rng.maxE j.rng.minT untilTurn

/-- the flags for usable ranges -/
theorem required_eq {j : Job} {w : World} {untilTurn : Nat} (hu : Fits j w.lattice untilTurn)
    (hT : j.rng.minT ≤ j.rng.maxT) (hne : w.lattice ≠ []) :
    ((j.required w untilTurn).ebe = true ↔ j.rng.minT < untilTurn) ∧
      ((j.required w untilTurn).monitors = true ↔ Storing w.lattice) := by
  unfold Job.required Output.required
  rw [if_pos ⟨hu.p.1, hu.p.2.1, hu.e.1, hu.e.2.1, hu.t.1, hT⟩]
  have := List.length_pos_iff.2 hne
  refine ⟨?_, anyStores_iff _⟩
  simp [this]

/-- Preparing the monitors is the last thing preparing the output does. -/
theorem prepare_detailed {es : List Elem} {outs : List OutObj} {minP maxP minE maxE minT : Int}
    {untilTurn : Nat} {fresh : Nat → Nat} {r : Prepared}
    (h : prepare es outs minP maxP minE maxE minT untilTurn fresh = .ok r)
    (hs : r.status = SUCCESS) :
    ∃ outs', prepareDetailed es outs' minP maxP minT (fun k => fresh (k + 1)) =
      (SUCCESS, r.elems, r.outs, r.monOffset) ∧
      (r.monOffset < r.outs.length ↔
        ∃ m, Elem.monitor m ∈ es ∧ minT ≤ m.start ∧ 0 < m.numStores) := by
  obtain ⟨hv, he, hc⟩ := prepare_success h hs
  have key : ∀ outs', r.outs = outs' ++
      (prepareLoop minP maxP minT (fun k => fresh (k + 1)) es 0).2 →
      r.monOffset = outs'.length →
      prepareDetailed es outs' minP maxP minT (fun k => fresh (k + 1)) =
      (SUCCESS, r.elems, r.outs, r.monOffset) ∧
      (r.monOffset < r.outs.length ↔
        ∃ m, Elem.monitor m ∈ es ∧ minT ≤ m.start ∧ 0 < m.numStores) := by
    intro outs' ho hm
    constructor
    · unfold prepareDetailed
      rw [if_neg (by omega), he, ho, hm]
    · rw [← prepareLoop_ne_nil minP maxP minT (fun k => fresh (k + 1)) es 0, ho, hm,
        List.length_append, ← List.length_pos_iff]
      omega
  rcases hc with ⟨-, -, -, -, -, n, -, ho, -, hm⟩ | ⟨-, ho, -, hm, -⟩
  · exact ⟨_, key _ ho (by simpa using hm)⟩
  · exact ⟨_, key _ ho hm⟩

/-- The configuration for usable ranges. -/
theorem prepareCfg_ok {j : Job} {es : List Elem} {untilTurn : Nat} {outs : List OutObj}
    {fresh : Nat → Nat} {r : Prepared} (hu : Fits j es untilTurn) (ho : j.order ≠ ORDER_INVALID)
    (h : prepare es outs j.rng.minP j.rng.maxP j.rng.minE j.rng.maxE j.rng.minT untilTurn fresh =
      .ok r) (hs : r.status = SUCCESS) :
    (j.rng.minT < untilTurn → ∃ cfg, blankCfg.preset.initDetailed j.order j.rng.minP j.rng.maxP
      j.rng.minE j.rng.maxE j.rng.minT r.maxTurn j.rolling = .ok (SUCCESS, cfg) ∧
      prepareCfg j r untilTurn = .ok (SUCCESS, some cfg, untilTurn)) ∧
    (¬ j.rng.minT < untilTurn → prepareCfg j r untilTurn = .ok (SUCCESS, none, 0)) := by
  constructor
  · intro ht
    obtain ⟨_, _, -, -, -, h3, -⟩ := C71_prepared hu h
    obtain ⟨-, hm, -⟩ := h3 ht
    obtain ⟨⟨p0, p1, p2⟩, ⟨e0, e1, e2⟩, ⟨t0, t1⟩, -, -⟩ := hu
    have hc : ∃ cfg, blankCfg.preset.initDetailed j.order j.rng.minP j.rng.maxP
        j.rng.minE j.rng.maxE j.rng.minT r.maxTurn j.rolling = .ok (SUCCESS, cfg) := by
      unfold Cfg.initDetailed
      rw [if_pos ⟨ho, p0, p1, e0, e1, t0, by omega⟩, i64_ok (by unfold I64; omega),
        i64_ok (by unfold I64; omega), i64_ok (by unfold I64; omega)]
      exact ⟨_, rfl⟩
    obtain ⟨cfg, hc⟩ := hc
    refine ⟨cfg, hc, ?_⟩
    unfold prepareCfg
    rw [if_pos ⟨hs, by omega, t0, by omega, ht⟩, hc, Res.ok_bind]
    simp only [if_true, Res.pure_eq]
    rw [show toIndex untilTurn = untilTurn by unfold toIndex; rw [if_pos t1]]
  · intro ht
    unfold prepareCfg
    rw [if_neg (fun hc => ht hc.2.2.2.2), hs]
    rfl

/-- Everything that resetting does about the output, if some output is required. -/
theorem resetOutput_shape {j : Job} {w : World} {given : Option Ref} {ref : Ref} {untilTurn : Nat}
    {fresh : Nat → Nat} (hu : Fits j w.lattice untilTurn) (hT : j.rng.minT ≤ j.rng.maxT)
    (hne : w.lattice ≠ []) (ho : j.order ≠ ORDER_INVALID)
    (hn : j.numMonitors = (w.lattice.filter isMonitor).length)
    (href : chooseOut j.out given = some ref)
    (hreq : j.rng.minT < untilTurn ∨ Storing w.lattice) :
    ∃ r x, prepare w.lattice (World.get { w with own := ownAfter j.out given w.own } ref)
        j.rng.minP j.rng.maxP j.rng.minE j.rng.maxE j.rng.minT untilTurn fresh = .ok r ∧
      r.status = SUCCESS ∧ resetOutput j w given untilTurn fresh = .ok x ∧
      (x.1 = SUCCESS ↔ (Storing w.lattice → NoTrailingInactive j.rng.minT w.lattice)) ∧
      (x.1 = SUCCESS →
        x.2.1.rng = j.rng ∧ x.2.1.out = some ref ∧ x.2.2.get ref = r.outs ∧
        x.2.1.ebeOffset = r.ebeOffset ∧ x.2.1.monOffset = r.monOffset ∧
        (∀ r', r' ≠ ref → x.2.2.get r' =
          World.get { w with own := ownAfter j.out given w.own } r') ∧
        (j.rng.minT < untilTurn → ∃ cfg cfg', blankCfg.preset.initDetailed j.order j.rng.minP
          j.rng.maxP j.rng.minE j.rng.maxE j.rng.minT r.maxTurn j.rolling = .ok (SUCCESS, cfg) ∧
          assignEbe cfg r.outs r.ebeOffset = (SUCCESS, cfg') ∧ x.2.1.cfg = some cfg' ∧
          x.2.1.hasEbe = true ∧ x.2.1.untilTurn = untilTurn) ∧
        (¬ j.rng.minT < untilTurn → x.2.1.cfg = none ∧ x.2.1.hasEbe = j.hasEbe ∧
          x.2.1.untilTurn = 0) ∧
        (Storing w.lattice → x.2.1.hasMon = true ∧
          assignManaged r.elems r.outs j.rng.minT r.monOffset = (SUCCESS, x.2.2.lattice)) ∧
        (¬ Storing w.lattice → x.2.1.hasMon = j.hasMon ∧ x.2.2.lattice = r.elems)) := by
  obtain ⟨r, hr, hs⟩ := C71_prepare_succeeds
    (outs := World.get { w with own := ownAfter j.out given w.own } ref) (fresh := fresh) hu
  obtain ⟨hc1, hc2⟩ := prepareCfg_ok hu ho hr hs
  obtain ⟨hf1, hf2⟩ := required_eq hu hT hne
  obtain ⟨outs', hd, hlen⟩ := prepare_detailed hr hs
  have h25 := C25_prepared_can_be_assigned_partial hd
  have hflag : ((j.required w untilTurn).ebe || (j.required w untilTurn).monitors) = true := by
    rw [Bool.or_eq_true, hf1, hf2]; exact hreq
  -- the state after preparing
  have hprep : ∃ c u, prepareOutput j w given untilTurn fresh = .ok (SUCCESS,
      { j with out := some ref, cfg := c, untilTurn := u, ebeOffset := r.ebeOffset,
               monOffset := r.monOffset },
      { World.set { w with own := ownAfter j.out given w.own } ref r.outs with
        lattice := r.elems }) ∧
      (j.rng.minT < untilTurn → u = untilTurn ∧ ∃ cfg, c = some cfg ∧
        blankCfg.preset.initDetailed j.order j.rng.minP j.rng.maxP
          j.rng.minE j.rng.maxE j.rng.minT r.maxTurn j.rolling = .ok (SUCCESS, cfg)) ∧
      (¬ j.rng.minT < untilTurn → u = 0 ∧ c = none) := by
    unfold prepareOutput
    rw [href]
    simp only
    unfold prepareOn
    simp only [hr, Res.ok_bind]
    by_cases ht : j.rng.minT < untilTurn
    · obtain ⟨cfg, h1, h2⟩ := hc1 ht
      rw [h2]
      exact ⟨some cfg, untilTurn, rfl, fun _ => ⟨rfl, cfg, rfl, h1⟩, fun h => absurd ht h⟩
    · rw [hc2 ht]
      exact ⟨none, 0, rfl, fun h => absurd h ht, fun _ => ⟨rfl, rfl⟩⟩
  obtain ⟨c, u, hprep, hp1, hp2⟩ := hprep
  generalize hw1 : ({ World.set { w with own := ownAfter j.out given w.own } ref r.outs with
        lattice := r.elems } : World) = w1 at hprep
  have hw1get : w1.get ref = r.outs := by rw [← hw1, get_lattice, get_set]
  have hw1lat : w1.lattice = r.elems := by rw [← hw1]
  -- the state after assigning the configuration
  have hebe : ∃ c' b, andThen (SUCCESS, { j with
        out := some ref, cfg := c, untilTurn := u, ebeOffset := r.ebeOffset,
        monOffset := r.monOffset }, w1) (stepCfg (j.required w untilTurn).ebe) = (SUCCESS, { j with
        out := some ref, cfg := c', untilTurn := u, ebeOffset := r.ebeOffset,
        monOffset := r.monOffset, hasEbe := b }, w1) ∧
      (j.rng.minT < untilTurn → b = true ∧ ∃ cfg cfg', c = some cfg ∧ c' = some cfg' ∧
        assignEbe cfg r.outs r.ebeOffset = (SUCCESS, cfg')) ∧
      (¬ j.rng.minT < untilTurn → b = j.hasEbe ∧ c' = none) := by
    unfold andThen stepCfg
    rw [if_pos rfl]
    by_cases ht : j.rng.minT < untilTurn
    · obtain ⟨-, cfg, hcfg, -⟩ := hp1 ht
      obtain ⟨ebe, mons, h1, -, -, h3, -⟩ := C71_prepared hu hr
      obtain ⟨h4, -, h5⟩ := h3 ht
      obtain ⟨o, rfl⟩ : ∃ o, ebe = [o] :=
        List.length_eq_one_iff.1 (by have := congrArg List.length h5; simpa using this)
      simp only [List.map_cons, List.map_nil, List.cons.injEq, and_true] at h5
      have hget : r.outs[r.ebeOffset]? = some o := by rw [h1, h4]; simp
      have ha : assignEbe cfg r.outs r.ebeOffset = (SUCCESS, { cfg with outAddr := o.addr }) := by
        unfold assignEbe
        rw [hget]
        simp [h5]
      have hlt : r.ebeOffset < r.outs.length := (List.getElem?_eq_some_iff.1 hget).1
      refine ⟨some { cfg with outAddr := o.addr }, true, ?_, fun _ =>
        ⟨rfl, cfg, _, hcfg, rfl, ha⟩, fun h => absurd ht h⟩
      rw [if_pos (hf1.2 ht)]
      unfold assignCfg
      simp only [hcfg, hw1get, if_pos hlt, ha]
      rfl
    · rw [if_neg (fun h => ht (hf1.1 h))]
      exact ⟨none, j.hasEbe, by rw [(hp2 ht).2], fun h => absurd h ht, fun _ => ⟨rfl, rfl⟩⟩
  obtain ⟨c', b, hebe, hb1, hb2⟩ := hebe
  have hother : ∀ r', r' ≠ ref → w1.get r' =
      World.get { w with own := ownAfter j.out given w.own } r' := by
    intro r' hr'
    rw [← hw1, get_lattice]
    cases r' with
    | own => cases ref with
      | own => exact absurd rfl hr'
      | ext i => rfl
    | ext k => cases ref with
      | own => rfl
      | ext i =>
        have : k ≠ i := fun h => hr' (by rw [h])
        simp [World.set, World.get, this]
  have hres : resetOutput j w given untilTurn fresh = .ok (stepMon (j.required w untilTurn).monitors
      { j with
        out := some ref, cfg := c', untilTurn := u, ebeOffset := r.ebeOffset,
        monOffset := r.monOffset, hasEbe := b } w1) := by
    unfold resetOutput
    simp only [hflag, if_true, hprep, Res.ok_bind, Res.pure_eq, hebe]
    unfold andThen
    rw [if_pos rfl]
  refine ⟨r, _, hr, hs, hres, ?_⟩
  have hcommon : (j.rng.minT < untilTurn → ∃ cfg cfg', blankCfg.preset.initDetailed j.order
      j.rng.minP j.rng.maxP j.rng.minE j.rng.maxE j.rng.minT r.maxTurn j.rolling =
        .ok (SUCCESS, cfg) ∧ assignEbe cfg r.outs r.ebeOffset = (SUCCESS, cfg') ∧ c' = some cfg' ∧
        b = true ∧ u = untilTurn) ∧
      (¬ j.rng.minT < untilTurn → c' = none ∧ b = j.hasEbe ∧ u = 0) := by
    constructor
    · intro ht
      obtain ⟨h1, cfg, h2, h3⟩ := hp1 ht
      obtain ⟨h4, cfg2, cfg', h5, h6, h7⟩ := hb1 ht
      rw [h2] at h5
      obtain rfl := Option.some.inj h5
      exact ⟨cfg, cfg', h3, h7, h6, h4, h1⟩
    · intro ht
      exact ⟨(hb2 ht).2, (hb2 ht).1, (hp2 ht).1⟩
  by_cases hst : Storing w.lattice
  · have hflagm := hf2.2 hst
    have hnum : 0 < j.numMonitors := by
      obtain ⟨m, hm, -⟩ := hst
      rw [hn, List.length_pos_iff]
      exact List.ne_nil_of_mem (List.mem_filter.2 ⟨hm, rfl⟩)
    simp only [stepMon, if_pos hflagm]
    unfold assignMon
    simp only [hw1get, hw1lat]
    by_cases hact : r.monOffset < r.outs.length
    · rw [if_pos ⟨hnum, hu.t.1, hact⟩]
      simp only
      refine ⟨⟨fun h _ => h25.1 h, fun h => h25.2 (h hst)⟩, fun h => ?_⟩
      refine ⟨trivial, trivial, by rw [get_lattice, hw1get], trivial, trivial, ?_, hcommon.1,
        hcommon.2, fun _ => ⟨by simp [h], ?_⟩, fun h' => absurd hst h'⟩
      · intro r' hr'; rw [get_lattice]; exact hother r' hr'
      · rw [← h]
    · rw [if_neg (fun h => hact h.2.2)]
      simp only
      refine ⟨⟨fun h => absurd h (by decide), fun h => ?_⟩, fun h => absurd h (by decide)⟩
      exfalso
      apply hact
      rw [hlen]
      obtain ⟨m, hm, hpos⟩ := hst
      by_cases ha : j.rng.minT ≤ m.start
      · exact ⟨m, hm, ha, hpos⟩
      · obtain ⟨i, hi, hget⟩ := List.getElem_of_mem hm
        obtain ⟨i', m', -, h2, h3⟩ := h ⟨m, hm, hpos⟩ i m (by rw [List.getElem?_eq_getElem hi, hget])
          (fun hc => ha hc.1)
        exact ⟨m', List.mem_of_getElem? h2, h3.1, h3.2⟩
  · have hflagm : ¬ (j.required w untilTurn).monitors = true := fun h => hst (hf2.1 h)
    simp only [stepMon, if_neg hflagm]
    exact ⟨⟨fun _ h => absurd h hst, fun _ => trivial⟩, fun _ => ⟨trivial, trivial, hw1get, trivial,
      trivial, hother, hcommon.1, hcommon.2, fun h => absurd h hst, fun _ => ⟨trivial, hw1lat⟩⟩⟩

/-! ## the beam elements -/

theorem setMonitorRange_get (a b : Int) (es : List Elem) (k : Nat) :
    (setMonitorRange a b es)[k]? = es[k]?.map fun e => match e with
      | .monitor m => .monitor { m with minP := a, maxP := b }
      | .other => .other := by
  unfold setMonitorRange
  rw [List.getElem?_map]
  rfl

/-- `es'` is `es` up to the particle ranges of the monitors -/
def SameUpToRange (a b : Int) (es es' : List Elem) : Prop := es' = es ∨ es' = setMonitorRange a b es

theorem SameUpToRange.back {a b : Int} {es es' : List Elem} (h : SameUpToRange a b es es') {k : Nat}
    {m : Mon} (hm : es'[k]? = some (.monitor m)) : ∃ m0, es[k]? = some (.monitor m0) ∧
      m0.start = m.start ∧ m0.numStores = m.numStores ∧
      (∀ o, ({ m with minP := a, maxP := b, outAddr := o } : Mon) =
        { m0 with minP := a, maxP := b, outAddr := o }) := by
  rcases h with rfl | rfl
  · exact ⟨m, hm, rfl, rfl, fun _ => rfl⟩
  · rw [setMonitorRange_get] at hm
    cases he : es[k]? with
    | none => rw [he] at hm; simp at hm
    | some e =>
      rw [he] at hm
      cases e with
      | other => simp at hm
      | monitor m0 =>
        simp only [Option.map_some, Option.some.injEq, Elem.monitor.injEq] at hm
        subst hm
        exact ⟨m0, rfl, rfl, rfl, fun _ => rfl⟩

theorem SameUpToRange.forth {a b : Int} {es es' : List Elem} (h : SameUpToRange a b es es') {k : Nat}
    {m0 : Mon} (hm : es[k]? = some (.monitor m0)) : ∃ m, es'[k]? = some (.monitor m) ∧
      m0.start = m.start ∧ m0.numStores = m.numStores ∧
      (∀ o, ({ m with minP := a, maxP := b, outAddr := o } : Mon) =
        { m0 with minP := a, maxP := b, outAddr := o }) := by
  rcases h with rfl | rfl
  · exact ⟨m0, hm, rfl, rfl, fun _ => rfl⟩
  · exact ⟨{ m0 with minP := a, maxP := b }, by rw [setMonitorRange_get, hm]; rfl, rfl, rfl,
      fun _ => rfl⟩

theorem SameUpToRange.storing {a b : Int} {es es' : List Elem} (h : SameUpToRange a b es es') :
    Storing es' ↔ Storing es := by
  constructor
  · rintro ⟨m, hm, hp⟩
    obtain ⟨k, hk⟩ := List.mem_iff_getElem?.1 hm
    obtain ⟨m0, h1, -, h3, -⟩ := h.back hk
    exact ⟨m0, List.mem_of_getElem? h1, by omega⟩
  · rintro ⟨m, hm, hp⟩
    obtain ⟨k, hk⟩ := List.mem_iff_getElem?.1 hm
    obtain ⟨m0, h1, -, h3, -⟩ := h.forth hk
    exact ⟨m0, List.mem_of_getElem? h1, by omega⟩

theorem SameUpToRange.noTrailing {a b t : Int} {es es' : List Elem} (h : SameUpToRange a b es es') :
    NoTrailingInactive t es' ↔ NoTrailingInactive t es := by
  unfold NoTrailingInactive Mon.IsActive
  constructor
  · intro h' j m hj hna
    obtain ⟨m1, h1, h2, h3, -⟩ := h.forth hj
    obtain ⟨j', m', h4, h5, h6⟩ := h' j m1 h1 (by omega)
    obtain ⟨m2, h7, h8, h9, -⟩ := h.back h5
    exact ⟨j', m2, h4, h7, by omega⟩
  · intro h' j m hj hna
    obtain ⟨m1, h1, h2, h3, -⟩ := h.back hj
    obtain ⟨j', m', h4, h5, h6⟩ := h' j m1 h1 (by omega)
    obtain ⟨m2, h7, h8, h9, -⟩ := h.forth h5
    exact ⟨j', m2, h4, h7, by omega⟩

theorem SameUpToRange.usable {a b : Int} {es es' : List Elem} (h : SameUpToRange a b es es')
    {p q x y t : Int} {u : Nat} (hu : Usable es p q x y t u) : Usable es' p q x y t u := by
  refine ⟨hu.p, hu.e, hu.t, hu.ebe, ?_⟩
  intro m hm
  obtain ⟨k, hk⟩ := List.mem_iff_getElem?.1 hm
  obtain ⟨m0, h1, -, h3, -⟩ := h.back hk
  rw [← h3]
  exact hu.mon m0 (List.mem_of_getElem? h1)

theorem SameUpToRange.length {a b : Int} {es es' : List Elem} (h : SameUpToRange a b es es') :
    es'.length = es.length := by
  rcases h with rfl | rfl
  · rfl
  · simp [setMonitorRange]

theorem SameUpToRange.other {a b : Int} {es es' : List Elem} (h : SameUpToRange a b es es') {k : Nat}
    (hk : es[k]? = some .other) : es'[k]? = some .other := by
  rcases h with rfl | rfl
  · exact hk
  · rw [setMonitorRange_get, hk]; rfl

theorem setMonitorRange_count (a b : Int) (es : List Elem) :
    ((setMonitorRange a b es).filter isMonitor).length = (es.filter isMonitor).length := by
  induction es with
  | nil => rfl
  | cons e es ih =>
    cases e with
    | other => simpa [setMonitorRange, isMonitor] using ih
    | monitor m =>
      unfold setMonitorRange at ih ⊢
      rw [List.map_cons, List.filter_cons_of_pos rfl, List.filter_cons_of_pos rfl, List.length_cons,
        List.length_cons, ih]

/-- The element ids of a lattice are `0 .. length - 1`. -/
theorem range_of_lattice (es : List Elem) (hne : es ≠ []) (lo hi : Int) :
    findElementRange (es.map elemType) lo hi 0 =
      some (min lo 0, max hi (es.length - 1), es.length) := by
  obtain ⟨e, rest, rfl⟩ := List.ne_nil_iff_exists_cons.1 hne
  have hc : ∀ e, countsAsElement (elemType e) = true := by
    intro e; cases e <;> rfl
  have hf : (rest.map elemType).filter countsAsElement = rest.map elemType := by
    rw [List.filter_eq_self]
    intro x hx
    obtain ⟨e, -, rfl⟩ := List.mem_map.1 hx
    exact hc e
  rw [findElementRange_eq (pre := []) (le_refl 0) (List.map_cons ..) (by simp) (hc e), hf]
  simp only [List.length_map, List.length_nil, List.length_cons, Option.some.injEq, Prod.mk.injEq]
  refine ⟨by omega, by omega, by omega⟩

/-- The ranges of a job once it knows the elements. -/
def withElements (p : Ranges) (es : List Elem) : Ranges :=
  { p with minE := min p.minE 0, maxE := max p.maxE (es.length - 1) }

theorem prepareElements_ok {j : Job} {w : World} {samePB : Bool} (hne : w.lattice ≠ []) :
    ∃ es n, SameUpToRange j.rng.minP j.rng.maxP w.lattice es ∧
      prepareElements j w samePB = (SUCCESS, { j with
        rng := withElements j.rng w.lattice, numElements := n,
        numMonitors := (w.lattice.filter isMonitor).length }, { w with lattice := es }) := by
  unfold prepareElements
  rw [if_pos (List.length_pos_iff.2 hne), range_of_lattice _ hne]
  simp only
  split
  · exact ⟨_, _, Or.inr rfl, rfl⟩
  · exact ⟨_, j.numElements, Or.inl rfl, rfl⟩

/-! ## the monitors after preparing -/

theorem prepareLoop_get (a b t : Int) (fresh : Nat → Nat) (es : List Elem) (k : Nat) (i : Nat) :
    (prepareLoop a b t fresh es k).1[i]? = es[i]?.map fun e => match e with
      | .monitor m => if t ≤ m.start ∧ 0 < m.numStores then
          .monitor { m with minP := a, maxP := b, outAddr := 0 } else .monitor m
      | .other => .other := by
  induction es generalizing k i with
  | nil => simp [prepareLoop]
  | cons e es ih =>
    cases e with
    | other =>
      simp only [prepareLoop]
      cases i with
      | zero => simp
      | succ i => simpa using ih k i
    | monitor m =>
      simp only [prepareLoop]
      split
      · rename_i h
        have h' : t ≤ m.start ∧ 0 < m.numStores := by simpa [Mon.active] using h
        cases i with
        | zero => simp [h']
        | succ i => simpa using ih (k + 1) i
      · rename_i h
        have h' : ¬ (t ≤ m.start ∧ 0 < m.numStores) := by simpa [Mon.active] using h
        cases i with
        | zero => simp only [List.getElem?_cons_zero, Option.map_some, if_neg h']
        | succ i => simpa using ih k i

end SixTrack.TrackJob
