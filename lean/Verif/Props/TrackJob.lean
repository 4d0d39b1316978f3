import Verif.TrackJobLemmas

/-!
# Properties C72, C73: resetting a track job, giving it another output buffer
-/

namespace SixTrack
open Monitor EBE Output TrackJob

/-- The element-by-element output of a job is ready up to a turn: the job knows that it has one, its
configuration refers to an object of its output buffer, and every particle, element and turn of the
ranges of the job has a record of its own inside that object. -/
def EbeReady (j : Job) (w : World) (untilTurn : Nat) : Prop :=
  ∃ ref cfg o n, j.hasEbe = true ∧ j.untilTurn = untilTurn ∧ j.out = some ref ∧ j.cfg = some cfg ∧
    (w.get ref)[j.ebeOffset]? = some o ∧ cfg.outAddr = o.addr ∧ o.particles = some n ∧
    ∀ p e t, j.rng.minP ≤ p → p ≤ j.rng.maxP → j.rng.minE ≤ e → e ≤ j.rng.maxE →
      j.rng.minT ≤ t → t < untilTurn →
      ∃ i, cfg.storeIndex p e t = .ok i ∧ 0 ≤ i ∧ i < n ∧
        ∀ p' e' t', j.rng.minP ≤ p' → p' ≤ j.rng.maxP → j.rng.minE ≤ e' → e' ≤ j.rng.maxE →
          j.rng.minT ≤ t' → t' < untilTurn →
          cfg.storeIndex p' e' t' = .ok i → p' = p ∧ e' = e ∧ t' = t

/-- The monitors of the lattice `es` are ready in the job: the job knows that it has some, and every
active monitor has got the range of the particles and an object of the output buffer with a record
for every particle and store; the objects come after the offset of the monitors, in the order of the
lattice, one for each monitor. -/
def MonitorsReady (es : List Elem) (j : Job) (w : World) : Prop :=
  j.hasMon = true ∧ ∃ ref, j.out = some ref ∧ ∃ place : Nat → Nat,
    (∀ k m, es[k]? = some (.monitor m) → m.IsActive j.rng.minT →
      j.monOffset ≤ place k ∧
      ∃ o c, (w.get ref)[place k]? = some o ∧ o.particles = some c ∧
        (j.rng.maxP - j.rng.minP + 1) * m.numStores ≤ (c : Int) ∧
        w.lattice[k]? = some (.monitor { m with
          minP := j.rng.minP, maxP := j.rng.maxP, outAddr := o.addr })) ∧
    (∀ k k' m m', k < k' → es[k]? = some (.monitor m) → m.IsActive j.rng.minT →
      es[k']? = some (.monitor m') → m'.IsActive j.rng.minT → place k < place k')

/-! ## what follows from the description of the output part -/

/-- The output part of a reset that succeeds leaves everything ready. -/
private theorem resetOutput_ready {j : Job} {w : World} {given : Option Ref} {ref : Ref} {untilTurn : Nat}
    {fresh : Nat → Nat} {x : Int × Job × World}
    (hu : Fits j w.lattice untilTurn) (hT : j.rng.minT ≤ j.rng.maxT)
    (hne : w.lattice ≠ []) (ho : j.order ≠ ORDER_INVALID)
    (hn : j.numMonitors = (w.lattice.filter isMonitor).length)
    (href : chooseOut j.out given = some ref)
    (hreq : j.rng.minT < untilTurn ∨ Storing w.lattice)
    (h : resetOutput j w given untilTurn fresh = .ok x) (hs : x.1 = SUCCESS) :
    x.2.1.rng = j.rng ∧ x.2.1.out = some ref ∧
    (j.rng.minT < untilTurn → j.order = ORDER_TEP → EbeReady x.2.1 x.2.2 untilTurn) ∧
    (Storing w.lattice → MonitorsReady w.lattice x.2.1 x.2.2) ∧
    (∃ ebe mons, x.2.2.get ref =
        World.get { w with own := ownAfter j.out given w.own } ref ++ ebe ++ mons ∧
      x.2.1.monOffset =
        (World.get { w with own := ownAfter j.out given w.own } ref ++ ebe).length ∧
      mons.map (·.particles) = monitorRecords w.lattice j.rng.minP j.rng.maxP j.rng.minT ∧
      (j.rng.minT < untilTurn → x.2.1.ebeOffset =
        (World.get { w with own := ownAfter j.out given w.own } ref).length ∧
        ebe.map (·.particles) = [some ((j.rng.maxP - j.rng.minP + 1) *
          (j.rng.maxE - j.rng.minE + 1) * (untilTurn - j.rng.minT)).toNat]) ∧
      (untilTurn ≤ j.rng.minT → ebe = [])) ∧
    (∀ r', r' ≠ ref → x.2.2.get r' = World.get { w with own := ownAfter j.out given w.own } r') ∧
    (∀ (k : Nat) m, w.lattice[k]? = some (.monitor m) → ¬ m.IsActive j.rng.minT →
      x.2.2.lattice[k]? = some (.monitor m)) ∧
    (∀ k : Nat, w.lattice[k]? = some .other → x.2.2.lattice[k]? = some .other) := by
  obtain ⟨r, x', hr, hrs, h', -, hx⟩ := resetOutput_shape (fresh := fresh) hu hT hne ho hn href hreq
  rw [h] at h'
  obtain rfl := Res.ok.inj h'
  obtain ⟨e1, e2, e3, e4, e5, e6, e7, e8, e9, e10⟩ := hx hs
  obtain ⟨outs', hd, -⟩ := prepare_detailed hr hrs
  have hel : r.elems = (prepareLoop j.rng.minP j.rng.maxP j.rng.minT
      (fun k => fresh (k + 1)) w.lattice 0).1 := by
    unfold prepareDetailed at hd
    split at hd
    · simp [SUCCESS, FAILURE] at hd
    · exact (Prod.mk.inj (Prod.mk.inj hd).2).1.symm
  have hact : ∀ (k : Nat) m, w.lattice[k]? = some (.monitor m) → m.IsActive j.rng.minT →
      r.elems[k]? = some (.monitor { m with minP := j.rng.minP, maxP := j.rng.maxP, outAddr := 0 }) := by
    intro k m hk ha
    rw [hel, prepareLoop_get, hk]
    simp only [Option.map_some]
    rw [if_pos ⟨ha.1, ha.2⟩]
  have hina : ∀ (k : Nat) m, w.lattice[k]? = some (.monitor m) → ¬ m.IsActive j.rng.minT →
      r.elems[k]? = some (.monitor m) := by
    intro k m hk ha
    rw [hel, prepareLoop_get, hk]
    simp only [Option.map_some]
    rw [if_neg fun hc => ha ⟨hc.1, hc.2⟩]
  have hoth : ∀ k : Nat, w.lattice[k]? = some .other → r.elems[k]? = some .other := by
    intro k hk
    rw [hel, prepareLoop_get, hk]
    rfl
  have hneed : ∀ (m : Mon), m.IsActive j.rng.minT → Mon.NeedsOutput
      { m with minP := j.rng.minP, maxP := j.rng.maxP, outAddr := 0 } j.rng.minT :=
    fun m ha => ⟨ha.1, ha.2, hu.p.2.1⟩
  have hsize : ∀ m, Elem.monitor m ∈ r.elems → m.NeedsOutput j.rng.minT →
      (m.maxP - m.minP + 1) * m.numStores < 2^64 := by
    intro m hm hnm
    obtain ⟨k, hk⟩ := List.mem_iff_getElem?.1 hm
    have hk' := hk
    rw [hel, prepareLoop_get] at hk'
    cases hw : w.lattice[k]? with
    | none => rw [hw] at hk'; simp at hk'
    | some e =>
      cases e with
      | other => rw [hw] at hk'; simp at hk'
      | monitor m0 =>
        by_cases ha : m0.IsActive j.rng.minT
        · rw [hact k m0 hw ha] at hk
          simp only [Option.some.injEq, Elem.monitor.injEq] at hk
          subst hk
          have := hu.mon m0 (List.mem_of_getElem? hw)
          simp only
          omega
        · rw [hina k m0 hw ha] at hk
          simp only [Option.some.injEq, Elem.monitor.injEq] at hk
          subst hk
          exact absurd ⟨hnm.1, hnm.2.1⟩ ha
  refine ⟨e1, e2, ?_, ?_, ?_, e6, ?_, ?_⟩
  · intro ht hord
    obtain ⟨cfg, cfg', h1, h2, h3, h4, h5⟩ := e7 ht
    rw [hord] at h1
    obtain ⟨_, _, -, -, -, h6, -⟩ := C71_prepared hu hr
    obtain ⟨-, hmt, -⟩ := h6 ht
    have hcf : ConfiguredFor cfg j.rng.minP j.rng.maxP j.rng.minE j.rng.maxE j.rng.minT r.maxTurn
        j.rolling := by
      have := hu.p; have := hu.e; have := hu.t
      refine ⟨?_, ?_, ?_, _, h1⟩ <;> unfold I64 <;> omega
    obtain ⟨o, n, g1, g2, g3, -, g5⟩ := C71_records_fit hu hr ht hcf h2
    refine ⟨ref, cfg', o, n, h4, h5, e2, h3, by rw [e3, e4]; exact g1, g2, g3, ?_⟩
    rw [e1]
    exact g5
  · intro hst
    obtain ⟨h1, h2⟩ := e9 hst
    obtain ⟨-, -, -, h4⟩ := C24_assign h2 hsize
    refine ⟨h1, ref, e2, fun k => r.monOffset + needsBefore j.rng.minT r.elems k, ?_, ?_⟩
    · rw [e1, e3, e5]
      intro k m hk ha
      obtain ⟨o, c, g1, g2, g3, g4⟩ := h4 k _ (hact k m hk ha) (hneed m ha)
      exact ⟨Nat.le_add_right _ _, o, c, g1, g2, g3, g4⟩
    · rw [e1]
      intro k k' m m' hlt hk ha hk' ha'
      exact Nat.add_lt_add_left (needsBefore_lt hlt (hact k m hk ha) (hneed m ha)) _
  · obtain ⟨ebe, mons, h1, h2, h3, h4, h5⟩ := C71_prepared hu hr
    refine ⟨ebe, mons, by rw [e3]; exact h1, by rw [e5]; exact h2, h3, ?_, h5⟩
    intro ht
    rw [e4]
    exact ⟨(h4 ht).1, (h4 ht).2.2⟩
  · intro k m hk ha
    by_cases hst : Storing w.lattice
    · obtain ⟨-, h2⟩ := e9 hst
      obtain ⟨-, -, h3, -⟩ := C24_assign h2 hsize
      exact h3 k m (hina k m hk ha) fun hc => ha ⟨hc.1, hc.2.1⟩
    · rw [(e10 hst).2]; exact hina k m hk ha
  · intro k hk
    by_cases hst : Storing w.lattice
    · obtain ⟨-, h2⟩ := e9 hst
      obtain ⟨-, h3, -, -⟩ := C24_assign h2 hsize
      exact h3 k (hoth k hk)
    · rw [(e10 hst).2]; exact hoth k hk

/-! ## C72 -/

/-- The particles and the lattice a job is reset with are usable up to a turn: the ranges of the ids,
with the elements of the lattice counted from 0 on, and the turns. -/
structure Resettable (p : Ranges) (es : List Elem) (untilTurn : Nat) : Prop where
  ne : es ≠ []
  turns : p.minT ≤ p.maxT
  usable : Usable es p.minP p.maxP (min p.minE 0) (max p.maxE (es.length - 1)) p.minT untilTurn

/-- The output buffer a job uses after a reset: the one that is passed, otherwise its own. -/
def resetTarget (given : Option Ref) : Ref := given.getD .own

/-- The objects in that buffer when the reset starts: those of a buffer of the caller; the job's own
buffer is a new one. -/
def objectsBefore (w : World) : Option Ref → List OutObj
  | some (.ext i) => w.ext i
  | _ => []

/-- The output buffers of the caller are untouched by the preliminaries of a reset; the job's own
buffer is a new one. -/
private theorem reset_unfold {j : Job} {w : World} {p : Ranges} {given : Option Ref}
    {untilTurn : Nat} {samePB sameBE : Bool} {fresh : Nat → Nat}
    (hr : Resettable p w.lattice untilTurn) (hg : given ≠ some .own)
    (ho : given = j.out → j.order ≠ ORDER_INVALID) :
    ∃ j' w', reset j w p given untilTurn samePB sameBE fresh =
        resetOutput j' w' given untilTurn fresh ∧
      j'.rng = withElements p w.lattice ∧ j'.order ≠ ORDER_INVALID ∧
      (j'.order = if given ≠ none ∧ given = j.out then j.order else ORDER_TEP) ∧
      j'.numMonitors = (w'.lattice.filter isMonitor).length ∧
      (j'.out = none ∨ j'.out = given) ∧
      SameUpToRange p.minP p.maxP w.lattice w'.lattice ∧ Fits j' w'.lattice untilTurn ∧
      w'.ext = w.ext ∧ chooseOut j'.out given = some (resetTarget given) ∧
      (¬ (given ≠ none ∧ given = j.out) → j'.out = none ∧ j'.hasEbe = false ∧ j'.hasMon = false ∧
        j'.cfg = none ∧ j'.untilTurn = 0) := by
  unfold reset
  by_cases hc : given ≠ none ∧ given = j.out
  · obtain ⟨i, hi⟩ : ∃ i, given = some (.ext i) := by
      match given, hc.1, hg with
      | some (.ext i), _, _ => exact ⟨i, rfl⟩
      | some .own, _, h => exact absurd rfl h
      | none, h, _ => exact absurd rfl h
    simp only [if_pos hc]
    obtain ⟨es, n, h1, h2⟩ := prepareElements_ok (samePB := samePB)
      (j := { (if sameBE = true then j else { j with numMonitors := 0, numElements := 0 }) with
        rng := p }) (w := w) hr.ne
    simp only [h2, if_true]
    refine ⟨_, _, rfl, rfl, ?_, ?_, ?_, ?_, h1, ?_, rfl, ?_, fun h => absurd hc h⟩
    · cases sameBE <;> exact ho hc.2
    · cases sameBE <;> rfl
    · rcases h1 with rfl | rfl
      · rfl
      · exact (setMonitorRange_count _ _ _).symm
    · right; rw [hc.2]; cases sameBE <;> rfl
    · exact h1.usable hr.usable
    · have : j.out = some (.ext i) := by rw [← hc.2, hi]
      cases sameBE <;> simp [this, hi, chooseOut, resetTarget]
  · simp only [if_neg hc]
    obtain ⟨es, n, h1, h2⟩ := prepareElements_ok (samePB := samePB)
      (j := { (if sameBE = true then j.clearOutput else
          { j.clearOutput with numMonitors := 0, numElements := 0 }) with rng := p })
      (w := { w with own := [] }) hr.ne
    simp only [h2, if_true]
    refine ⟨_, _, rfl, rfl, ?_, ?_, ?_, ?_, h1, ?_, rfl, ?_, fun _ => ?_⟩
    · cases sameBE <;> exact (by decide : ORDER_TEP ≠ ORDER_INVALID)
    · cases sameBE <;> rfl
    · rcases h1 with rfl | rfl
      · rfl
      · exact (setMonitorRange_count _ _ _).symm
    · left; cases sameBE <;> rfl
    · exact h1.usable hr.usable
    · cases given with
      | none => cases sameBE <;> rfl
      | some g => cases sameBE <;> simp [chooseOut, resetTarget, Job.clearOutput]
    · cases sameBE <;> exact ⟨rfl, rfl, rfl, rfl, rfl⟩

/-- What the output part of a reset does if no output is required. -/
private theorem resetOutput_none {j : Job} {w : World} {given : Option Ref} {untilTurn : Nat}
    {fresh : Nat → Nat} (hu : Fits j w.lattice untilTurn) (hT : j.rng.minT ≤ j.rng.maxT)
    (hne : w.lattice ≠ []) (ht : ¬ j.rng.minT < untilTurn) (hs : ¬ Storing w.lattice) :
    resetOutput j w given untilTurn fresh =
      .ok (SUCCESS, if j.out = none then { j with out := given } else j, w) := by
  obtain ⟨h1, h2⟩ := required_eq hu hT hne
  unfold resetOutput
  have hf : ¬ ((j.required w untilTurn).ebe || (j.required w untilTurn).monitors) = true := by
    rw [Bool.or_eq_true, h1, h2]
    rintro (h | h)
    · exact ht h
    · exact hs h
  simp only [if_neg hf]
  rfl

/-- **C72 (when a reset succeeds)**: with usable particles and elements, and an output buffer that is
none or one of the caller, a reset succeeds exactly if no monitor of the lattice stores anything or
every inactive monitor is followed by an active one. -/
theorem C72_reset_succeeds {j : Job} {w : World} {p : Ranges} {given : Option Ref}
    {untilTurn : Nat} {samePB sameBE : Bool} {fresh : Nat → Nat}
    (hr : Resettable p w.lattice untilTurn) (hg : given ≠ some .own)
    (ho : given = j.out → j.order ≠ ORDER_INVALID) :
    ∃ x, reset j w p given untilTurn samePB sameBE fresh = .ok x ∧
      (x.1 = SUCCESS ↔ (Storing w.lattice → NoTrailingInactive p.minT w.lattice)) := by
  obtain ⟨j', w', h, h1, h2, -, h4, -, h6, h7, -, h9, -⟩ := reset_unfold (samePB := samePB)
    (sameBE := sameBE) (fresh := fresh) hr hg ho
  have hne : w'.lattice ≠ [] := by
    have := h6.length; have := List.length_pos_iff.2 hr.ne
    exact List.length_pos_iff.1 (by omega)
  have hT : j'.rng.minT ≤ j'.rng.maxT := by rw [h1]; exact hr.turns
  have hmin : j'.rng.minT = p.minT := by rw [h1]; rfl
  by_cases hreq : j'.rng.minT < untilTurn ∨ Storing w'.lattice
  · obtain ⟨r, x, -, -, hx, hx2, -⟩ := resetOutput_shape (fresh := fresh) h7 hT hne h2 h4 h9 hreq
    refine ⟨x, by rw [h, hx], ?_⟩
    rw [hx2, h6.storing, h6.noTrailing, hmin]
  · rw [not_or] at hreq
    refine ⟨_, by rw [h, resetOutput_none h7 hT hne hreq.1 hreq.2], ?_⟩
    rw [h6.storing] at hreq
    exact ⟨fun _ hs => absurd hs hreq.2, fun _ => rfl⟩

/-- **C72 (the element-by-element output is ready)**: after a reset that succeeds, up to a turn after
the first one, the element-by-element output is ready. -/
theorem C72_ebe_ready {j : Job} {w : World} {p : Ranges} {given : Option Ref}
    {untilTurn : Nat} {samePB sameBE : Bool} {fresh : Nat → Nat} {x : Int × Job × World}
    (hr : Resettable p w.lattice untilTurn) (hg : given ≠ some .own)
    (ho : given = j.out → j.order = ORDER_TEP) (ht : p.minT < untilTurn)
    (h : reset j w p given untilTurn samePB sameBE fresh = .ok x) (hs : x.1 = SUCCESS) :
    x.2.1.rng = withElements p w.lattice ∧ x.2.1.out = some (resetTarget given) ∧
      EbeReady x.2.1 x.2.2 untilTurn := by
  obtain ⟨j', w', h', h1, h2, h3, h4, -, h6, h7, -, h9, -⟩ := reset_unfold (j := j)
    (samePB := samePB) (sameBE := sameBE) (fresh := fresh) hr hg
    (fun hc => by rw [ho hc]; decide)
  rw [h'] at h
  have hne : w'.lattice ≠ [] := by
    have := h6.length; have := List.length_pos_iff.2 hr.ne
    exact List.length_pos_iff.1 (by omega)
  have hT : j'.rng.minT ≤ j'.rng.maxT := by rw [h1]; exact hr.turns
  have hmin : j'.rng.minT = p.minT := by rw [h1]; rfl
  obtain ⟨g1, g2, g3, -⟩ := resetOutput_ready h7 hT hne h2 h4 h9
    (Or.inl (by rw [hmin]; exact ht)) h hs
  refine ⟨by rw [g1, h1], g2, g3 (by rw [hmin]; exact ht) ?_⟩
  rw [h3]
  split
  · rename_i hc; exact ho hc.2
  · rfl

/-- **C72 (the monitors are ready)**: after a reset that succeeds, with a lattice with a monitor that
stores something, the monitors are ready. -/
theorem C72_monitors_ready {j : Job} {w : World} {p : Ranges} {given : Option Ref}
    {untilTurn : Nat} {samePB sameBE : Bool} {fresh : Nat → Nat} {x : Int × Job × World}
    (hr : Resettable p w.lattice untilTurn) (hg : given ≠ some .own)
    (ho : given = j.out → j.order ≠ ORDER_INVALID) (hst : Storing w.lattice)
    (h : reset j w p given untilTurn samePB sameBE fresh = .ok x) (hs : x.1 = SUCCESS) :
    x.2.1.rng = withElements p w.lattice ∧ x.2.1.out = some (resetTarget given) ∧
      MonitorsReady w.lattice x.2.1 x.2.2 := by
  obtain ⟨j', w', h', h1, h2, -, h4, -, h6, h7, -, h9, -⟩ := reset_unfold (j := j)
    (samePB := samePB) (sameBE := sameBE) (fresh := fresh) hr hg ho
  rw [h'] at h
  have hne : w'.lattice ≠ [] := by
    have := h6.length; have := List.length_pos_iff.2 hr.ne
    exact List.length_pos_iff.1 (by omega)
  have hT : j'.rng.minT ≤ j'.rng.maxT := by rw [h1]; exact hr.turns
  obtain ⟨g1, g2, -, g4, -⟩ := resetOutput_ready h7 hT hne h2 h4 h9
    (Or.inr (h6.storing.2 hst)) h hs
  refine ⟨by rw [g1, h1], g2, ?_⟩
  obtain ⟨f1, ref, f2, place, f3, f4⟩ := g4 (h6.storing.2 hst)
  have hrng : x.2.1.rng = withElements p w.lattice := by rw [g1, h1]
  refine ⟨f1, ref, f2, place, ?_, ?_⟩
  · intro k m hk ha
    obtain ⟨m', a1, a2, a3, a4⟩ := h6.forth hk
    obtain ⟨b1, o, c, b2, b3, b4, b5⟩ := f3 k m' a1 ⟨by rw [← a2]; exact ha.1, by rw [← a3]; exact ha.2⟩
    refine ⟨b1, o, c, b2, b3, by rw [a3]; exact b4, ?_⟩
    rw [b5]
    have := a4 o.addr
    rw [hrng]
    exact congrArg (fun m => some (Elem.monitor m)) this
  · intro k k' m m' hlt hk ha hk' ha'
    obtain ⟨n, a1, a2, a3, -⟩ := h6.forth hk
    obtain ⟨n', a1', a2', a3', -⟩ := h6.forth hk'
    exact f4 k k' n n' hlt a1 ⟨by rw [← a2]; exact ha.1, by rw [← a3]; exact ha.2⟩ a1'
      ⟨by rw [← a2']; exact ha'.1, by rw [← a3']; exact ha'.2⟩

/-- **C72 (what is added)**: a reset that succeeds leaves the objects that are in an output buffer of
the caller and adds the object for the element-by-element output, if that reaches beyond the first
turn, and then those of the active monitors; the offsets of the job are those of the two groups, and
the other buffers of the caller stay as they are. -/
theorem C72_output_added {j : Job} {w : World} {p : Ranges} {given : Option Ref}
    {untilTurn : Nat} {samePB sameBE : Bool} {fresh : Nat → Nat} {x : Int × Job × World}
    (hr : Resettable p w.lattice untilTurn) (hg : given ≠ some .own)
    (ho : given = j.out → j.order ≠ ORDER_INVALID)
    (hreq : p.minT < untilTurn ∨ Storing w.lattice)
    (h : reset j w p given untilTurn samePB sameBE fresh = .ok x) (hs : x.1 = SUCCESS) :
    (∃ ebe mons, x.2.2.get (resetTarget given) =
        objectsBefore w given ++ ebe ++ mons ∧
      x.2.1.monOffset = (objectsBefore w given ++ ebe).length ∧
      mons.map (·.particles) = monitorRecords w.lattice p.minP p.maxP p.minT ∧
      (p.minT < untilTurn → x.2.1.ebeOffset + 1 = x.2.1.monOffset ∧ ebe.map (·.particles) =
        [some ((p.maxP - p.minP + 1) * (max p.maxE (w.lattice.length - 1) - min p.minE 0 + 1) *
          (untilTurn - p.minT)).toNat]) ∧
      (untilTurn ≤ p.minT → ebe = [])) ∧
    (∀ i, resetTarget given ≠ .ext i → x.2.2.ext i = w.ext i) := by
  obtain ⟨j', w', h', h1, h2, -, h4, h5, h6, h7, h8, h9, -⟩ := reset_unfold (j := j)
    (samePB := samePB) (sameBE := sameBE) (fresh := fresh) hr hg ho
  rw [h'] at h
  have hne : w'.lattice ≠ [] := by
    have := h6.length; have := List.length_pos_iff.2 hr.ne
    exact List.length_pos_iff.1 (by omega)
  have hT : j'.rng.minT ≤ j'.rng.maxT := by rw [h1]; exact hr.turns
  have hmin : j'.rng.minT = p.minT := by rw [h1]; rfl
  obtain ⟨-, -, -, -, ⟨ebe, mons, g1, g2, g3, g4, g5⟩, g6, -⟩ := resetOutput_ready h7 hT hne h2 h4 h9
    (by rw [hmin, h6.storing]; exact hreq) h hs
  have hbase : World.get { w' with own := ownAfter j'.out given w'.own } (resetTarget given) =
      objectsBefore w given := by
    match given, hg, h5 with
    | none, _, h5 =>
      have : j'.out = none := by rcases h5 with h | h <;> exact h
      simp [resetTarget, World.get, ownAfter, this, objectsBefore]
    | some .own, hg, _ => exact absurd rfl hg
    | some (.ext i), _, _ => simp [resetTarget, World.get, h8, objectsBefore]
  rw [hbase] at g1 g2 g4
  constructor
  · refine ⟨ebe, mons, g1, g2, ?_, ?_, by rw [hmin] at g5; exact g5⟩
    · rw [g3, h1]
      unfold monitorRecords
      rcases h6 with h6 | h6
      · rw [h6]; rfl
      · rw [h6, setMonitorRange, List.filterMap_map]
        apply List.filterMap_congr
        intro e _
        cases e <;> rfl
    · intro ht
      obtain ⟨k1, k2⟩ := g4 (by rw [hmin]; exact ht)
      have hl := congrArg List.length k2
      simp only [List.length_map, List.length_cons, List.length_nil] at hl
      refine ⟨by rw [g2, k1, List.length_append, hl], ?_⟩
      rw [k2, h1]
      rfl
  · intro i hi
    have := g6 (.ext i) (fun hc => hi hc.symm)
    simp only [World.get, h8] at this
    exact this

/-- **C72 (no output is required)**: a reset up to a turn that is not after the first one, with a
lattice without monitors that store something, succeeds and changes no buffer of the caller; a job
that did not use the buffer before has then no element-by-element output and no monitors. -/
theorem C72_nothing_required {j : Job} {w : World} {p : Ranges} {given : Option Ref}
    {untilTurn : Nat} {samePB sameBE : Bool} {fresh : Nat → Nat}
    (hr : Resettable p w.lattice untilTurn) (hg : given ≠ some .own)
    (ho : given = j.out → j.order ≠ ORDER_INVALID)
    (ht : untilTurn ≤ p.minT) (hst : ¬ Storing w.lattice) :
    ∃ x, reset j w p given untilTurn samePB sameBE fresh = .ok x ∧ x.1 = SUCCESS ∧
      x.2.1.out = given ∧ x.2.2.ext = w.ext ∧
      (given = none ∨ given ≠ j.out →
        x.2.1.hasEbe = false ∧ x.2.1.hasMon = false ∧ x.2.1.cfg = none ∧ x.2.1.untilTurn = 0) := by
  obtain ⟨j', w', h, h1, h2, -, h4, h5, h6, h7, h8, h9, h10⟩ := reset_unfold (samePB := samePB)
    (sameBE := sameBE) (fresh := fresh) hr hg ho
  have hne : w'.lattice ≠ [] := by
    have := h6.length; have := List.length_pos_iff.2 hr.ne
    exact List.length_pos_iff.1 (by omega)
  have hT : j'.rng.minT ≤ j'.rng.maxT := by rw [h1]; exact hr.turns
  have hmin : j'.rng.minT = p.minT := by rw [h1]; rfl
  refine ⟨_, by rw [h, resetOutput_none h7 hT hne (by omega) (by rw [h6.storing]; exact hst)], rfl,
    ?_, h8, ?_⟩
  · simp only
    split
    · rfl
    · rcases h5 with h5 | h5
      · rename_i hc; exact absurd h5 hc
      · exact h5
  · intro hc
    obtain ⟨a1, a2, a3, a4, a5⟩ := h10 (by rintro ⟨b1, b2⟩; rcases hc with hc | hc
                                           · exact b1 hc
                                           · exact hc b2)
    simp only [if_pos a1]
    exact ⟨a2, a3, a4, a5⟩

/-! ### examples -/

/-- a job that has just been created -/
def newJob : Job :=
  { rng := ⟨0, 0, 0, 0, 0, 0⟩, numMonitors := 0, numElements := 0, cfg := none, out := none,
    ebeOffset := 0, monOffset := 0, untilTurn := 0, hasEbe := false, hasMon := false,
    order := ORDER_TEP, rolling := true }

/-- the example lattice, and output buffers of the caller with one object each -/
def jobWorld : World := { own := [], ext := fun _ => [⟨77, some 9⟩], lattice := outputLattice }

/-- two particles that start in turn 0 at element 0 -/
def jobRanges : Ranges := ⟨0, 1, 0, 0, 0, 0⟩

theorem jobRanges_resettable : Resettable jobRanges jobWorld.lattice 10 :=
  ⟨by decide, by decide, outputLattice_usable⟩

theorem jobWorld_storing : Storing jobWorld.lattice :=
  ⟨⟨2, 0, 1, 77, -1, -1, 0, 1⟩, by decide, by decide⟩

theorem jobWorld_noTrailing : NoTrailingInactive 0 jobWorld.lattice := by
  intro k m hk hna
  have hm : Elem.monitor m ∈ outputLattice := List.mem_of_getElem? hk
  simp [outputLattice] at hm
  rcases hm with rfl | rfl <;> exact absurd (by decide) hna

/-- the example after a reset with buffer 3 of the caller -/
theorem jobReset_ok : ∃ x, reset newJob jobWorld jobRanges (some (.ext 3)) 10 false false
    (5000 + ·) = .ok x ∧ x.1 = SUCCESS := by
  obtain ⟨x, h1, h2⟩ := C72_reset_succeeds (j := newJob) (given := some (.ext 3)) (samePB := false)
    (sameBE := false) (fresh := (5000 + ·)) jobRanges_resettable (by decide) (by decide)
  exact ⟨x, h1, h2.2 fun _ => jobWorld_noTrailing⟩

example : ∃ x, reset newJob jobWorld jobRanges (some (.ext 3)) 10 false false (5000 + ·) = .ok x ∧
    EbeReady x.2.1 x.2.2 10 ∧ MonitorsReady jobWorld.lattice x.2.1 x.2.2 := by
  obtain ⟨x, h, hs⟩ := jobReset_ok
  exact ⟨x, h, (C72_ebe_ready jobRanges_resettable (by decide) (by decide) (by decide) h hs).2.2,
    (C72_monitors_ready jobRanges_resettable (by decide) (by decide) jobWorld_storing h hs).2.2⟩

example : ∃ x, reset newJob jobWorld jobRanges (some (.ext 3)) 10 false false (5000 + ·) = .ok x ∧
    x.2.2.ext 3 = [⟨77, some 9⟩, ⟨5000, some 100⟩, ⟨5001, some 4⟩, ⟨5002, some 6⟩] ∧
    x.2.2.ext 2 = [⟨77, some 9⟩] ∧ x.2.1.ebeOffset = 1 ∧ x.2.1.monOffset = 2 ∧
    x.2.2.lattice = [.other, .monitor ⟨2, 0, 1, 5001, 1, 0, 0, 1⟩, .other,
      .monitor ⟨3, 5, 1, 5002, 1, 0, 1, 1⟩, .other] :=
  ⟨_, rfl, by decide, by decide, by decide, by decide, by decide⟩

/-- one drift -/
def driftWorld : World := { own := [], ext := fun _ => [], lattice := [.other] }

theorem driftWorld_resettable (u : Nat) (hu : u < 1000) :
    Resettable jobRanges driftWorld.lattice u := by
  refine ⟨by decide, by decide, by decide, by decide, ⟨by decide, by omega⟩, ?_, ?_⟩
  · have e : (jobRanges.maxP - jobRanges.minP + 1) *
        (max jobRanges.maxE (driftWorld.lattice.length - 1) - min jobRanges.minE 0 + 1) = 2 := by
      decide
    rw [e]
    have : jobRanges.minT = 0 := rfl
    omega
  · intro m hm; simp [driftWorld] at hm

example : ∃ x, reset newJob driftWorld jobRanges (some (.ext 3)) 0 false false (5000 + ·) = .ok x ∧
    x.1 = SUCCESS ∧ x.2.1.out = some (.ext 3) := by
  obtain ⟨x, h1, h2, h3, -⟩ := C72_nothing_required (j := newJob) (given := some (.ext 3))
    (samePB := false) (sameBE := false) (fresh := (5000 + ·)) (driftWorld_resettable 0 (by decide))
    (by decide) (by decide) (by decide) (by rintro ⟨m, hm, -⟩; simp [driftWorld] at hm)
  exact ⟨x, h1, h2, h3⟩

/-! ### what does not hold -/

/-- **C72 (a reset succeeds) is false in general**: with a lattice whose only monitor starts before
the first turn of the particles the reset fails, though there is nothing to prepare. -/
theorem C72_reset_early_monitor_violated :
    ∃ w p x, Resettable p w.lattice 0 ∧ monitorRecords w.lattice p.minP p.maxP p.minT = [] ∧
      reset newJob w p none 0 false false id = .ok x ∧ x.1 ≠ SUCCESS := by
  refine ⟨⟨[], fun _ => [], [.monitor ⟨20, 0, 1, 0, -1, -1, 0, 1⟩]⟩, ⟨0, 1, 0, 0, 5, 5⟩, _,
    ⟨by decide, by decide, by decide, by decide, by decide, by decide, ?_⟩, by decide, rfl,
    by decide⟩
  intro m hm
  simp at hm
  subst hm
  decide

/-- **C72 (nothing is left of the former output) is false in general**: a job that is reset with the
output buffer it uses already keeps its element-by-element output, its configuration and its last
turn, though none is asked for. -/
theorem C72_stale_output_violated :
    ∃ x y, reset newJob driftWorld jobRanges (some (.ext 3)) 10 false false (5000 + ·) = .ok x ∧
      reset x.2.1 x.2.2 jobRanges (some (.ext 3)) 0 true true (6000 + ·) = .ok y ∧
      y.1 = SUCCESS ∧ y.2.1.hasEbe = true ∧ y.2.1.cfg = x.2.1.cfg ∧ x.2.1.cfg ≠ none ∧
      y.2.1.untilTurn = 10 :=
  ⟨_, _, rfl, rfl, by decide, by decide, by decide, by decide, by decide⟩

/-- **C72 (the output buffer of the job can be passed) is false**: a job that owns its output buffer
cannot be reset with that buffer. -/
theorem C72_own_buffer_violated :
    ∃ x y, reset newJob driftWorld jobRanges none 10 false false (5000 + ·) = .ok x ∧
      x.1 = SUCCESS ∧ x.2.1.out = some .own ∧
      reset x.2.1 x.2.2 jobRanges (some .own) 10 true true (6000 + ·) = .ok y ∧ y.1 ≠ SUCCESS :=
  ⟨_, _, rfl, by decide, by decide, rfl, by decide⟩

/-- **C72 (the default of the rolling flag is used) is false**: the default that is set in the job is
overwritten by a reset with another output buffer. -/
theorem C72_rolling_default_violated :
    ∃ x cfg, reset { newJob with rolling := false } driftWorld jobRanges none 10 false false
        (5000 + ·) = .ok x ∧
      x.1 = SUCCESS ∧ x.2.1.cfg = some cfg ∧ cfg.isRolling = true :=
  ⟨_, _, rfl, by decide, rfl, by decide⟩

/-- **C72 (the number of elements is known) is false**: after the first reset the job says that its
buffer holds no elements. -/
theorem C72_num_elements_violated :
    ∃ x, reset newJob jobWorld jobRanges none 10 false false (5000 + ·) = .ok x ∧
      x.1 = SUCCESS ∧ x.2.2.lattice.length = 5 ∧ x.2.1.numElements = 0 :=
  ⟨_, rfl, by decide, by decide, by decide⟩

/-! ## C73 -/

/-- The order of the two assignments does not matter if both succeed. -/
private theorem steps_comm {y z : Int × Job × World} {a b : Bool}
    (h : andThen (andThen y (stepCfg b)) (stepMon a) = z) (hz : z.1 = SUCCESS) :
    andThen (andThen y (stepMon a)) (stepCfg b) = z := by
  obtain ⟨s, j, w⟩ := y
  have fail : ¬ FAILURE = SUCCESS := by decide
  by_cases hs : s = SUCCESS
  · subst hs
    have hid : ∀ y : Int × Job × World, (if y.1 = SUCCESS then (SUCCESS, y.2.1, y.2.2) else y) = y := by
      rintro ⟨s, j, w⟩
      simp only
      split
      · rename_i hc; rw [hc]
      · rfl
    cases a <;> cases b
    · exact h
    · simp only [andThen, stepCfg, stepMon, if_true, Bool.false_eq_true, if_false] at h ⊢
      rw [← h]
      split
      · rename_i hc; rw [hc]
      · rfl
    · simp only [andThen, stepCfg, stepMon, if_true, Bool.false_eq_true, if_false] at h ⊢
      rw [hid]
      exact h
    · simp only [andThen, stepCfg, stepMon, if_true] at h ⊢
      by_cases hc : (assignCfg j w).1 = SUCCESS
      · rw [if_pos hc] at h
        unfold assignCfg at hc h ⊢
        split at hc
        · rename_i c ref hcfg hout
          split at hc
          · rename_i hlt
            simp only [hcfg, hout, if_pos hlt] at h ⊢
            unfold assignMon at h ⊢
            simp only [hout] at h ⊢
            split at h
            · rename_i hm
              simp only [if_pos hm]
              subst h
              simp only at hz hc
              rw [if_pos hz]
              simp only [hcfg, get_lattice, if_pos hlt, hc, hz]
            · subst h; exact absurd hz fail
          · exact absurd hc fail
        · exact absurd hc fail
      · rw [if_neg hc] at h
        subst h
        exact absurd hz hc
  · simp only [andThen, if_neg hs] at h
    subst h
    exact absurd hz hs

/-- **C73 (another output buffer), part**: let a job have its output up to a turn, for particles that
start in turn 0.  If every inactive monitor is followed by an active one, giving the job another
output buffer succeeds and everything is ready in that buffer, with the objects that were in it in
front.  Missing: particles that start later, see `C73_turns_lost_violated`. -/
theorem C73_assign_partial {j : Job} {w : World} {i : Nat} {untilTurn : Nat} {fresh : Nat → Nat}
    (hu : Fits j w.lattice untilTurn) (hT : 0 ≤ j.rng.maxT) (h0 : j.rng.minT = 0)
    (hne : w.lattice ≠ []) (ho : j.order = ORDER_TEP)
    (hn : j.numMonitors = (w.lattice.filter isMonitor).length)
    (hut : j.untilTurn = untilTurn) (hebe : 0 < untilTurn → j.hasEbe = true)
    (hmon : Storing w.lattice → j.hasMon = true)
    (hreq : 0 < untilTurn ∨ Storing w.lattice)
    (htr : Storing w.lattice → NoTrailingInactive 0 w.lattice) :
    ∃ x, assignNew j w (some (.ext i)) fresh = .ok x ∧ x.1 = SUCCESS ∧ x.2.1.rng = j.rng ∧
      x.2.1.out = some (.ext i) ∧
      (0 < untilTurn → EbeReady x.2.1 x.2.2 untilTurn) ∧
      (Storing w.lattice → MonitorsReady w.lattice x.2.1 x.2.2) ∧
      (∃ new, x.2.2.ext i = w.ext i ++ new ∧ new.length =
        (if 0 < untilTurn then 1 else 0) +
          (monitorRecords w.lattice j.rng.minP j.rng.maxP 0).length) ∧
      (∀ k, k ≠ i → x.2.2.ext k = w.ext k) := by
  have hoi : j.order ≠ ORDER_INVALID := by rw [ho]; decide
  have href : chooseOut j.out (some (.ext i)) = some (.ext i) := by simp [chooseOut]
  have hT' : j.rng.minT ≤ j.rng.maxT := by omega
  have hreq' : j.rng.minT < untilTurn ∨ Storing w.lattice := by rw [h0]; simpa using hreq
  obtain ⟨r, x, -, -, hx, hiff, -⟩ := resetOutput_shape (fresh := fresh) hu hT' hne hoi hn href hreq'
  have hs : x.1 = SUCCESS := by rw [hiff, h0]; exact htr
  obtain ⟨g1, g2, g3, g4, ⟨ebe, mons, g5, -, g6, g7, g8⟩, g9, -⟩ :=
    resetOutput_ready hu hT' hne hoi hn href hreq' hx hs
  have hnum : j.numEbeTurns = untilTurn := by
    unfold Job.numEbeTurns
    rw [hut, h0]
    split
    · omega
    · omega
  obtain ⟨f1, f2⟩ := required_eq hu hT' hne
  have hflag : ((j.required w untilTurn).ebe || (j.required w untilTurn).monitors) = true := by
    rw [Bool.or_eq_true, f1, f2]; exact hreq'
  have he : ((j.required w untilTurn).ebe && j.hasEbe) = (j.required w untilTurn).ebe := by
    cases hb : (j.required w untilTurn).ebe with
    | false => rfl
    | true => rw [hebe (by have := f1.1 hb; omega)]; rfl
  have hm : ((j.required w untilTurn).monitors && j.hasMon) =
      (j.required w untilTurn).monitors := by
    cases hb : (j.required w untilTurn).monitors with
    | false => rfl
    | true => rw [hmon (f2.1 hb)]; rfl
  refine ⟨x, ?_, hs, g1, g2, fun ht => g3 (by omega) ho, g4, ?_, ?_⟩
  · unfold resetOutput at hx
    unfold assignNew
    rw [hnum]
    simp only [hflag, if_true, he, hm] at hx ⊢
    obtain ⟨y, hy1, hy2⟩ := Res.bind_eq_ok.1 hx
    rw [hy1, Res.ok_bind]
    exact congrArg Res.ok (steps_comm (Res.ok.inj hy2) hs)
  · refine ⟨ebe ++ mons, by simpa [World.get] using g5, ?_⟩
    have hml := congrArg List.length g6
    rw [h0] at hml
    rw [List.length_append, ← hml, List.length_map]
    by_cases ht : 0 < untilTurn
    · have hl := congrArg List.length (g7 (by omega)).2
      simp only [List.length_map, List.length_cons, List.length_nil] at hl
      rw [hl, if_pos ht]
    · rw [g8 (by omega), if_neg ht]; simp
  · intro k hk
    have := g9 (.ext k) (by simpa using hk)
    simpa [World.get] using this

example : ∃ x y, reset newJob jobWorld jobRanges none 10 false false (5000 + ·) = .ok x ∧
    assignNew x.2.1 x.2.2 (some (.ext 3)) (6000 + ·) = .ok y ∧ y.1 = SUCCESS ∧
    y.2.2.ext 3 = [⟨77, some 9⟩, ⟨6000, some 100⟩, ⟨6001, some 4⟩, ⟨6002, some 6⟩] ∧
    y.2.1.cfg.map (·.outAddr) = some 6000 :=
  ⟨_, _, rfl, rfl, by decide, by decide, by decide⟩

/-- **C73 (the output of the job after a reset meets the conditions)**: after a reset up to turn 10 for
particles that start in turn 0 the job can be given another buffer. -/
example : ∃ x, reset newJob jobWorld jobRanges none 10 false false (5000 + ·) = .ok x ∧
    Fits x.2.1 x.2.2.lattice 10 ∧ 0 ≤ x.2.1.rng.maxT ∧ x.2.1.rng.minT = 0 ∧
    x.2.1.order = ORDER_TEP ∧ x.2.1.numMonitors = (x.2.2.lattice.filter isMonitor).length ∧
    x.2.1.untilTurn = (10 : Nat) ∧ x.2.1.hasEbe = true ∧ x.2.1.hasMon = true := by
  refine ⟨_, rfl, ⟨by decide, by decide, by decide, by decide, ?_⟩, by decide, by decide, by decide,
    by decide, by decide, by decide, by decide⟩
  intro m hm
  have hm' : Elem.monitor m ∈ [Elem.other, .monitor ⟨2, 0, 1, 5001, 1, 0, 0, 1⟩, .other,
      .monitor ⟨3, 5, 1, 5002, 1, 0, 1, 1⟩, .other] := hm
  simp at hm'
  rcases hm' with rfl | rfl <;> decide

/-- **C73 (the output reaches the same turn) is false in general**: for particles that start in turn 2
and an output up to turn 10 the output in the new buffer ends before turn 8. -/
theorem C73_turns_lost_violated :
    ∃ x y, reset newJob driftWorld ⟨0, 1, 0, 0, 2, 2⟩ none 10 false false (5000 + ·) = .ok x ∧
      x.1 = SUCCESS ∧ x.2.1.untilTurn = 10 ∧
      assignNew x.2.1 x.2.2 (some (.ext 3)) (6000 + ·) = .ok y ∧ y.1 = SUCCESS ∧
      y.2.1.untilTurn = 8 ∧ y.2.1.cfg.map (·.maxT) = some 7 :=
  ⟨_, _, rfl, by decide, by decide, rfl, by decide, by decide, by decide⟩

/-- **C73 (another buffer can be given to a job with output) is false in general**: for particles that
start in turn 5 and an output up to turn 10 the call fails. -/
theorem C73_refused_violated :
    ∃ x y, reset newJob driftWorld ⟨0, 1, 0, 0, 5, 5⟩ none 10 false false (5000 + ·) = .ok x ∧
      x.1 = SUCCESS ∧ x.2.1.hasEbe = true ∧
      assignNew x.2.1 x.2.2 (some (.ext 3)) (6000 + ·) = .ok y ∧ y.1 ≠ SUCCESS :=
  ⟨_, _, rfl, by decide, by decide, rfl, by decide⟩

/-- a job with both outputs, for particles that start in turn 5 and output up to turn 10 -/
def turn5Job : Job :=
  { rng := ⟨0, 1, 0, 1, 5, 5⟩, numMonitors := 1, numElements := 0,
    cfg := some ⟨0, 2, 2, 5, 0, 0, 5, 1, 1, 9, 1, 5000⟩, out := some .own, ebeOffset := 0,
    monOffset := 1, untilTurn := 10, hasEbe := true, hasMon := true, order := 0,
    rolling := true }

/-- the buffers of that job -/
def turn5World : World :=
  ⟨[⟨5000, some 20⟩, ⟨5001, some 4⟩], fun _ => [],
    [.other, .monitor ⟨2, 5, 1, 5001, 1, 0, 0, 1⟩]⟩

/-- **C73 (the configuration is not lost) is false in general**: with a monitor in the lattice the
call succeeds in that case, the configuration of the element-by-element output is gone, and the job
still says that it has one. -/
theorem C73_config_lost_violated :
    reset newJob ⟨[], fun _ => [], [.other, .monitor ⟨2, 5, 1, 0, -1, -1, 0, 1⟩]⟩
      ⟨0, 1, 0, 0, 5, 5⟩ none 10 false false (5000 + ·) = .ok (SUCCESS, turn5Job, turn5World) ∧
    ∃ y, assignNew turn5Job turn5World (some (.ext 3)) (6000 + ·) = .ok y ∧ y.1 = SUCCESS ∧
      y.2.1.hasEbe = true ∧ y.2.1.cfg = none :=
  ⟨rfl, _, rfl, by decide +kernel, by decide +kernel, by decide +kernel⟩

/-- **C73 (the C++ function reports the status) is false**: for C++ buffers the status is always the
opposite, while the job and the buffers change in the same way. -/
theorem C73_cxx_status_violated {j : Job} {w : World} {g : Ref} {fresh : Nat → Nat}
    {x : Int × Job × World} (h : assignNew j w (some g) fresh = .ok x) :
    ∃ y, assignOutputCxx j w g fresh = .ok y ∧ (y.1 = SUCCESS ↔ x.1 ≠ SUCCESS) ∧ y.2 = x.2 := by
  unfold assignOutputCxx
  rw [h, Res.ok_bind]
  refine ⟨_, rfl, ?_, rfl⟩
  show (if x.1 ≠ 0 then SUCCESS else FAILURE) = SUCCESS ↔ x.1 ≠ 0
  by_cases hx : x.1 = 0
  · rw [if_neg (not_not.2 hx)]
    exact ⟨fun h => absurd h (by decide), fun h => absurd hx h⟩
  · rw [if_pos hx]
    exact ⟨fun _ => hx, fun _ => rfl⟩

example : ∃ x y z, reset newJob driftWorld jobRanges none 10 false false (5000 + ·) = .ok x ∧
    assignNew x.2.1 x.2.2 (some (.ext 3)) (6000 + ·) = .ok y ∧ y.1 = SUCCESS ∧
    assignOutputCxx x.2.1 x.2.2 (.ext 3) (6000 + ·) = .ok z ∧ z.1 = FAILURE :=
  ⟨_, _, _, rfl, rfl, by decide, rfl, by decide⟩

/-! ## what stays -/

/-- What preparing the output adds is added at the end. -/
private theorem prepare_appends {es : List Elem} {outs : List OutObj} {minP maxP minE maxE minT : Int}
    {untilTurn : Nat} {fresh : Nat → Nat} {r : Prepared}
    (h : prepare es outs minP maxP minE maxE minT untilTurn fresh = .ok r) :
    ∃ new, r.outs = outs ++ new := by
  have hm : ∀ (outs : List OutObj) (fresh : Nat → Nat) (off : Nat) (mt : Int),
      ∃ new, (prepareMonitors es outs minP maxP minT fresh off mt).outs = outs ++ new := by
    intro outs fresh off mt
    have hd : ∃ new, (prepareDetailed es outs minP maxP minT fresh).2.2.1 = outs ++ new := by
      unfold prepareDetailed
      split
      · exact ⟨[], by simp⟩
      · exact ⟨_, rfl⟩
    unfold prepareMonitors
    simp only
    split <;> exact hd
  unfold prepare at h
  split at h
  · rw [Res.bind_eq_ok] at h
    obtain ⟨a, ha, h⟩ := h
    have h := (Res.ok_inj _ _).1 h
    have hpa : ∃ new, a.2.1 = outs ++ new := by
      unfold prepareEbe at ha
      split at ha
      · rw [Res.bind_eq_ok] at ha
        obtain ⟨n, -, ha⟩ := ha
        have ha := (Res.ok_inj _ _).1 ha
        subst ha; exact ⟨_, rfl⟩
      · have ha := (Res.ok_inj _ _).1 ha
        subst ha; exact ⟨[], by simp⟩
    obtain ⟨n1, hn1⟩ := hpa
    rw [← h]
    split
    · obtain ⟨n2, hn2⟩ := hm a.2.1 (fun k => fresh (k + 1)) a.2.2 (toIndex (untilTurn - 1))
      exact ⟨n1 ++ n2, by rw [hn2, hn1, List.append_assoc]⟩
    · exact ⟨n1, hn1⟩
  · have h := (Res.ok_inj _ _).1 h
    rw [← h]
    exact hm _ _ _ _

private theorem stepCfg_keeps (b : Bool) (j : Job) (w : World) :
    (stepCfg b j w).2.1.out = j.out ∧ (stepCfg b j w).2.2 = w ∧ (stepCfg b j w).2.1.hasMon = j.hasMon ∧
    (b = false → (stepCfg b j w).2.1.hasEbe = j.hasEbe) := by
  unfold stepCfg
  split
  · rename_i hb
    unfold assignCfg
    split
    · split <;> simp [hb]
    · simp [hb]
  · simp

private theorem stepMon_keeps (b : Bool) (j : Job) (w : World) :
    (stepMon b j w).2.1.out = j.out ∧ (∀ r, (stepMon b j w).2.2.get r = w.get r) ∧
    (stepMon b j w).2.1.hasEbe = j.hasEbe ∧ (b = false → (stepMon b j w).2.1.hasMon = j.hasMon) ∧
    ((stepMon b j w).1 ≠ SUCCESS → (stepMon b j w).2.1.hasMon = false) := by
  unfold stepMon
  split
  · rename_i hb
    unfold assignMon
    split
    · split
      · refine ⟨rfl, fun r => get_lattice _ _ _, rfl, by simp [hb], fun h => ?_⟩
        simpa using h
      · simp [hb]
    · simp [hb]
  · simp

private theorem prepareOutput_keeps {j : Job} {w : World} {given : Option Ref} {u : Nat}
    {fresh : Nat → Nat} {x : Int × Job × World} (h : prepareOutput j w given u fresh = .ok x) :
    x.2.1.hasMon = j.hasMon ∧ x.2.1.hasEbe = j.hasEbe := by
  unfold prepareOutput at h
  split at h
  · have h := (Res.ok_inj _ _).1 h
    subst h; exact ⟨rfl, rfl⟩
  · unfold prepareOn at h
    rw [Res.bind_eq_ok] at h
    obtain ⟨a, -, h⟩ := h
    rw [Res.bind_eq_ok] at h
    obtain ⟨b, -, h⟩ := h
    have h := (Res.ok_inj _ _).1 h
    subst h; exact ⟨rfl, rfl⟩

/-- **C73 (no buffer is passed)**: a job that has an output buffer keeps it, with everything that is in it,
and what is added comes behind; the other buffers stay as they are. -/
theorem C73_none_keeps {j : Job} {w : World} {fresh : Nat → Nat} {x : Int × Job × World} {r : Ref}
    (hr : j.out = some r) (h : assignNew j w none fresh = .ok x) :
    x.2.1.out = some r ∧ (∃ new, x.2.2.get r = w.get r ++ new) ∧ ∀ r', r' ≠ r → x.2.2.get r' = w.get r' := by
  unfold assignNew at h
  simp only at h
  split at h
  · rw [Res.bind_eq_ok] at h
    obtain ⟨y, hy, h⟩ := h
    have h := (Res.ok_inj _ _).1 h
    have key : y.2.1.out = some r ∧ (∃ new, y.2.2.get r = w.get r ++ new) ∧
        ∀ r', r' ≠ r → y.2.2.get r' = w.get r' := by
      unfold prepareOutput chooseOut ownAfter at hy
      rw [hr] at hy
      simp only [Option.getD_some, reduceCtorEq, and_false, ne_eq, not_true_eq_false, if_false] at hy
      unfold prepareOn at hy
      rw [Res.bind_eq_ok] at hy
      obtain ⟨a, ha, hy⟩ := hy
      rw [Res.bind_eq_ok] at hy
      obtain ⟨b, -, hy⟩ := hy
      have hy := (Res.ok_inj _ _).1 hy
      subst hy
      obtain ⟨new, hnew⟩ := prepare_appends ha
      refine ⟨rfl, ⟨new, ?_⟩, ?_⟩
      · rw [get_lattice, get_set, hnew]
      · intro r' hne
        rw [get_lattice]
        cases r <;> cases r' <;> simp_all [World.set, World.get]
    rw [← h]
    have s1 := stepMon_keeps ((j.required w j.numEbeTurns).monitors && j.hasMon) y.2.1 y.2.2
    have step : ∀ z : Int × Job × World, z.2.1.out = y.2.1.out → (∀ r, z.2.2.get r = y.2.2.get r) →
        (andThen z (stepCfg ((j.required w j.numEbeTurns).ebe && j.hasEbe))).2.1.out = y.2.1.out ∧
        ∀ r, (andThen z (stepCfg ((j.required w j.numEbeTurns).ebe && j.hasEbe))).2.2.get r = y.2.2.get r := by
      intro z hz1 hz2
      have s2 := stepCfg_keeps ((j.required w j.numEbeTurns).ebe && j.hasEbe) z.2.1 z.2.2
      unfold andThen
      split
      · exact ⟨by rw [s2.1, hz1], fun r => by rw [s2.2.1, hz2]⟩
      · exact ⟨hz1, hz2⟩
    have e : (andThen y (stepMon ((j.required w j.numEbeTurns).monitors && j.hasMon))).2.1.out = y.2.1.out ∧
        ∀ r, (andThen y (stepMon ((j.required w j.numEbeTurns).monitors && j.hasMon))).2.2.get r =
          y.2.2.get r := by
      unfold andThen
      split
      · exact ⟨s1.1, s1.2.1⟩
      · exact ⟨rfl, fun _ => rfl⟩
    obtain ⟨e1, e2⟩ := step _ e.1 e.2
    rw [e1, e2]
    refine ⟨key.1, key.2.1, fun r' hne => ?_⟩
    rw [e2]; exact key.2.2 r' hne
  · have h := (Res.ok_inj _ _).1 h
    subst h
    exact ⟨hr, ⟨[], by simp⟩, fun _ _ => rfl⟩

example : ∃ x y, reset newJob jobWorld jobRanges none 10 false false (5000 + ·) = .ok x ∧
    x.2.1.out = some .own ∧ x.2.2.own.length = 3 ∧
    assignNew x.2.1 x.2.2 none (6000 + ·) = .ok y ∧ y.1 = SUCCESS ∧ y.2.2.own.length = 6 :=
  ⟨_, _, rfl, by decide, by decide, rfl, by decide, by decide⟩

/-- **C73 (only what has output gets other output)**: giving a job another output buffer turns no output on
that was off. -/
theorem C73_stays_off {j : Job} {w : World} {given : Option Ref} {fresh : Nat → Nat}
    {x : Int × Job × World} (h : assignNew j w given fresh = .ok x) :
    (j.hasMon = false → x.2.1.hasMon = false) ∧ (j.hasEbe = false → x.2.1.hasEbe = false) := by
  unfold assignNew at h
  simp only at h
  split at h
  · rw [Res.bind_eq_ok] at h
    obtain ⟨y, hy, h⟩ := h
    have h := (Res.ok_inj _ _).1 h
    obtain ⟨k1, k2⟩ := prepareOutput_keeps hy
    rw [← h]
    have s1 := stepMon_keeps ((j.required w j.numEbeTurns).monitors && j.hasMon) y.2.1 y.2.2
    have e : (j.hasMon = false →
          (andThen y (stepMon ((j.required w j.numEbeTurns).monitors && j.hasMon))).2.1.hasMon = false) ∧
        (andThen y (stepMon ((j.required w j.numEbeTurns).monitors && j.hasMon))).2.1.hasEbe = j.hasEbe := by
      unfold andThen
      split
      · exact ⟨fun hm => by rw [s1.2.2.2.1 (by simp [hm]), k1, hm], by rw [s1.2.2.1, k2]⟩
      · exact ⟨fun hm => by rw [k1, hm], k2⟩
    generalize andThen y (stepMon ((j.required w j.numEbeTurns).monitors && j.hasMon)) = z at e ⊢
    have s2 := stepCfg_keeps ((j.required w j.numEbeTurns).ebe && j.hasEbe) z.2.1 z.2.2
    unfold andThen
    split
    · exact ⟨fun hm => by rw [s2.2.2.1, e.1 hm], fun he => by rw [s2.2.2.2 (by simp [he]), e.2, he]⟩
    · exact ⟨e.1, fun he => by rw [e.2, he]⟩
  · have h := (Res.ok_inj _ _).1 h
    subst h
    exact ⟨id, id⟩

example : ∃ x, assignNew { turn5Job with hasMon := false } turn5World (some (.ext 3)) (6000 + ·) = .ok x ∧
    x.2.1.hasMon = false ∧ (turn5Job.required turn5World turn5Job.numEbeTurns).monitors = true :=
  ⟨_, rfl, by decide +kernel, by decide +kernel⟩

/-- **C72 (failure)**: a reset with another output buffer that fails leaves a job that says it has no output of
beam monitors. -/
theorem C72_failed_monitors {j : Job} {w : World} {p : Ranges} {given : Option Ref} {untilTurn : Nat}
    {samePB sameBE : Bool} {fresh : Nat → Nat} {x : Int × Job × World}
    (hg : given = none ∨ given ≠ j.out)
    (h : reset j w p given untilTurn samePB sameBE fresh = .ok x) (hs : x.1 ≠ SUCCESS) :
    x.2.1.hasMon = false := by
  have hc : ¬ (given ≠ none ∧ given = j.out) := by
    rcases hg with hg | hg
    · simp [hg]
    · exact fun h => hg h.2
  unfold reset at h
  simp only [if_neg hc] at h
  have hpe : ∀ (j : Job) (w : World) (b : Bool), (prepareElements j w b).2.1.hasMon = j.hasMon := by
    intro j w b
    unfold prepareElements
    split
    · split
      · rfl
      · simp only
        split <;> rfl
    · rfl
  have h0 : ∀ (b : Bool) (q : Ranges), ({ (if b = true then j.clearOutput else
      { j.clearOutput with numMonitors := 0, numElements := 0 }) with rng := q } : Job).hasMon = false := by
    intro b q; cases b <;> rfl
  generalize hj : ({ (if sameBE = true then j.clearOutput else
      { j.clearOutput with numMonitors := 0, numElements := 0 }) with rng := p } : Job) = j2 at h
  have hj2 : j2.hasMon = false := by rw [← hj]; exact h0 sameBE p
  generalize hx : prepareElements j2 { w with own := [] } samePB = y at h
  have hy : y.2.1.hasMon = false := by rw [← hx, hpe, hj2]
  split at h
  · unfold resetOutput at h
    simp only at h
    split at h
    · rw [Res.bind_eq_ok] at h
      obtain ⟨z, hz, h⟩ := h
      have h := (Res.ok_inj _ _).1 h
      obtain ⟨k1, -⟩ := prepareOutput_keeps hz
      rw [hy] at k1
      generalize y.2.1.required y.2.2 untilTurn = f at h
      have e : (andThen z (stepCfg f.ebe)).2.1.hasMon = false := by
        unfold andThen
        split
        · rw [(stepCfg_keeps f.ebe z.2.1 z.2.2).2.2.1, k1]
        · exact k1
      generalize andThen z (stepCfg f.ebe) = v at e h
      subst h
      unfold andThen at hs ⊢
      split
      · rename_i hv
        rw [if_pos hv] at hs
        exact (stepMon_keeps f.monitors v.2.1 v.2.2).2.2.2.2 hs
      · exact e
    · have h := (Res.ok_inj _ _).1 h
      subst h
      exact absurd rfl hs
  · have h := (Res.ok_inj _ _).1 h
    subst h; exact hy

example : ∃ w p x, reset { newJob with hasMon := true } w p none 0 false false id = .ok x ∧ x.1 ≠ SUCCESS ∧
    x.2.1.hasMon = false :=
  ⟨⟨[], fun _ => [], [.monitor ⟨20, 0, 1, 0, -1, -1, 0, 1⟩]⟩, ⟨0, 1, 0, 0, 5, 5⟩, _, rfl, by decide, by decide⟩

end SixTrack
