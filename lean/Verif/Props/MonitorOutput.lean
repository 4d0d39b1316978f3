import Verif.MonitorLemmas
import Mathlib.Data.List.Nodup

/-!
# Properties C24, C25, C26, C47: output of beam monitors
-/

namespace SixTrack
open Monitor EBE

/-- The monitor needs an output object: it starts at or after the first turn, stores at least one
turn and has a particle range. -/
def Monitor.Mon.NeedsOutput (m : Mon) (firstTurn : Int) : Prop :=
  firstTurn ≤ m.start ∧ 0 < m.numStores ∧ m.minP ≤ m.maxP

instance (m : Mon) (t : Int) : Decidable (m.NeedsOutput t) := by
  unfold Mon.NeedsOutput; infer_instance

/-- number of elements before position `j` that need an output object -/
def needsBefore (firstTurn : Int) (es : List Elem) (j : Nat) : Nat :=
  ((es.take j).filter fun e => match e with
    | .monitor m => decide (m.NeedsOutput firstTurn)
    | .other => false).length

private theorem active_iff (m : Mon) (t : Int) :
    m.active t = true ↔ t ≤ m.start ∧ 0 < m.numStores := by
  simp [Mon.active]

private theorem ppt_pos (m : Mon) : 0 < m.particlesPerTurn ↔ m.minP ≤ m.maxP := by
  unfold Mon.particlesPerTurn
  split
  · rename_i h; constructor
    · intro _; exact h
    · intro _; omega
  · rename_i h; constructor
    · intro h'; omega
    · intro h'; omega

/-- what the assignment loop does, position by position -/
private theorem assignLoop_spec (t : Int) (es : List Elem) (outs : List OutObj) (es' : List Elem)
    (h : assignLoop t es outs = (SUCCESS, es')) :
    es'.length = es.length ∧
    (∀ j : Nat, es[j]? = some .other → es'[j]? = some .other) ∧
    (∀ (j : Nat) m, es[j]? = some (.monitor m) → ¬ m.NeedsOutput t →
      es'[j]? = some (.monitor m)) ∧
    (∀ (j : Nat) m, es[j]? = some (.monitor m) → m.NeedsOutput t →
      ∃ o c, outs[needsBefore t es j]? = some o ∧ o.particles = some c ∧
        mulU64 (m.maxP - m.minP + 1) m.numStores ≤ c ∧
        es'[j]? = some (.monitor { m with outAddr := o.addr })) := by
  induction es generalizing outs es' with
  | nil =>
    simp [assignLoop] at h
    subst h; simp
  | cons e es ih =>
    cases e with
    | other =>
      simp only [assignLoop] at h
      obtain ⟨hs, rfl⟩ := Prod.mk.inj h
      obtain ⟨h1, h2, h3, h4⟩ := ih outs _ (by rw [← hs])
      refine ⟨by simp [h1], ?_, ?_, ?_⟩
      · intro j hj; cases j with
        | zero => simp
        | succ j => simpa using h2 j (by simpa using hj)
      · intro j m hj hn; cases j with
        | zero => simp at hj
        | succ j => simpa using h3 j m (by simpa using hj) hn
      · intro j m hj hn; cases j with
        | zero => simp at hj
        | succ j =>
          obtain ⟨o, c, a, b, c', d⟩ := h4 j m (by simpa using hj) hn
          exact ⟨o, c, by simpa [needsBefore] using a, b, c', by simpa using d⟩
    | monitor m0 =>
      -- the case in which the monitor keeps its output address
      have skip : ∀ (o : OutObj) os, ¬ m0.NeedsOutput t →
          (let r := assignLoop t es (o :: os); (r.1, Elem.monitor m0 :: r.2)) = (SUCCESS, es') →
          es'.length = (Elem.monitor m0 :: es).length ∧
          (∀ j : Nat, (Elem.monitor m0 :: es)[j]? = some .other → es'[j]? = some .other) ∧
          (∀ (j : Nat) m, (Elem.monitor m0 :: es)[j]? = some (.monitor m) → ¬ m.NeedsOutput t →
            es'[j]? = some (.monitor m)) ∧
          (∀ (j : Nat) m, (Elem.monitor m0 :: es)[j]? = some (.monitor m) → m.NeedsOutput t →
            ∃ o' c, (o :: os)[needsBefore t (Elem.monitor m0 :: es) j]? = some o' ∧
              o'.particles = some c ∧ mulU64 (m.maxP - m.minP + 1) m.numStores ≤ c ∧
              es'[j]? = some (.monitor { m with outAddr := o'.addr })) := by
        intro o os hn h
        obtain ⟨hs, rfl⟩ := Prod.mk.inj h
        obtain ⟨h1, h2, h3, h4⟩ := ih (o :: os) _ (by rw [← hs])
        refine ⟨by simp [h1], ?_, ?_, ?_⟩
        · intro j hj; cases j with
          | zero => simp at hj
          | succ j => simpa using h2 j (by simpa using hj)
        · intro j m hj hn'; cases j with
          | zero => simpa using hj
          | succ j => simpa using h3 j m (by simpa using hj) hn'
        · intro j m hj hn'; cases j with
          | zero => simp at hj; subst hj; exact absurd hn' hn
          | succ j =>
            obtain ⟨o', c, a, b, c', d⟩ := h4 j m (by simpa using hj) hn'
            refine ⟨o', c, ?_, b, c', by simpa using d⟩
            simpa [needsBefore, hn] using a
      cases outs with
      | nil => simp [assignLoop, SUCCESS, FAILURE] at h
      | cons o os =>
        simp only [assignLoop] at h
        split at h
        · rename_i hact
          have hact' := (active_iff m0 t).1 hact
          split at h
          · rename_i hc
            obtain ⟨c1, c2, c3⟩ := hc
            have hne : m0.NeedsOutput t := ⟨hact'.1, hact'.2, (ppt_pos m0).1 c1⟩
            obtain ⟨hs, rfl⟩ := Prod.mk.inj h
            obtain ⟨h1, h2, h3, h4⟩ := ih os _ (by rw [← hs])
            refine ⟨by simp [h1], ?_, ?_, ?_⟩
            · intro j hj; cases j with
              | zero => simp at hj
              | succ j => simpa using h2 j (by simpa using hj)
            · intro j m hj hn'; cases j with
              | zero => simp at hj; subst hj; exact absurd hne hn'
              | succ j => simpa using h3 j m (by simpa using hj) hn'
            · intro j m hj hn'; cases j with
              | zero =>
                simp at hj; subst hj
                obtain ⟨c, hc⟩ := Option.isSome_iff_exists.1 c2
                refine ⟨o, c, by simp [needsBefore], hc, ?_, by simp⟩
                have hp : m0.particlesPerTurn = m0.maxP - m0.minP + 1 := by
                  unfold Mon.particlesPerTurn; rw [if_pos hne.2.2]
                rw [hp, hc] at c3
                simpa using c3
              | succ j =>
                obtain ⟨o', c, a, b, c', d⟩ := h4 j m (by simpa using hj) hn'
                refine ⟨o', c, ?_, b, c', by simpa using d⟩
                simpa [needsBefore, hne] using a
          · split at h
            · simp [SUCCESS, FAILURE] at h
            · rename_i hp
              exact skip o os (fun hn => hp ((ppt_pos m0).2 hn.2.2)) h
        · rename_i hact
          exact skip o os (fun hn => hact ((active_iff m0 t).2 ⟨hn.1, hn.2.1⟩)) h

/-- **C24**: after a successful assignment the lattice is unchanged except that every monitor that
needs an output object refers to one that is large enough for all its records; the monitors use
the output objects in lattice order, starting at the given offset, one object each.  Monitors that
need none keep the address they had. -/
theorem C24_assign {es es' : List Elem} {outs : List OutObj} {minTurn : Int} {offset : Nat}
    (h : assignManaged es outs minTurn offset = (SUCCESS, es'))
    (hsize : ∀ m, Elem.monitor m ∈ es → m.NeedsOutput minTurn →
      (m.maxP - m.minP + 1) * m.numStores < 2^64) :
    es'.length = es.length ∧
    (∀ j : Nat, es[j]? = some .other → es'[j]? = some .other) ∧
    (∀ (j : Nat) m, es[j]? = some (.monitor m) → ¬ m.NeedsOutput minTurn →
      es'[j]? = some (.monitor m)) ∧
    (∀ (j : Nat) m, es[j]? = some (.monitor m) → m.NeedsOutput minTurn →
      ∃ o c, outs[offset + needsBefore minTurn es j]? = some o ∧ o.particles = some c ∧
        (m.maxP - m.minP + 1) * m.numStores ≤ (c : Int) ∧
        es'[j]? = some (.monitor { m with outAddr := o.addr })) := by
  unfold assignManaged at h
  split at h
  · obtain ⟨h1, h2, h3, h4⟩ := assignLoop_spec _ _ _ _ h
    refine ⟨h1, h2, h3, ?_⟩
    intro j m hj hn
    obtain ⟨o, c, a, b, c', d⟩ := h4 j m hj hn
    refine ⟨o, c, ?_, b, ?_, d⟩
    · rw [List.getElem?_drop] at a; exact a
    · have hb := hsize m (List.mem_of_getElem? hj) hn
      have h0 : 0 ≤ (m.maxP - m.minP + 1) * m.numStores := by
        have := hn.2.1; have := hn.2.2
        exact mul_nonneg (by omega) (by omega)
      unfold mulU64 at c'
      rw [Int.emod_eq_of_lt h0 hb] at c'
      omega
  · simp [SUCCESS, FAILURE] at h

theorem needsBefore_lt {t : Int} {es : List Elem} {j j' : Nat} {m : Mon} (hlt : j < j')
    (hj : es[j]? = some (.monitor m)) (hn : m.NeedsOutput t) :
    needsBefore t es j < needsBefore t es j' := by
  unfold needsBefore
  have hjl : j < es.length := by
    by_contra hc
    rw [List.getElem?_eq_none (by omega)] at hj; simp at hj
  have hsub : es.take (j + 1) <+: es.take j' := List.take_prefix_take_left (by omega)
  have htk : es.take (j + 1) = es.take j ++ [.monitor m] := by
    rw [List.take_add_one, hj]; rfl
  obtain ⟨r, hr⟩ := hsub
  rw [← hr, htk, List.filter_append, List.filter_append, List.length_append, List.length_append]
  simp only [List.filter_cons, hn, decide_true, if_true, List.filter_nil, List.length_cons,
    List.length_nil]
  omega

/-- **C24 (exclusive)**: if the output objects have different addresses, no two monitors that need
an output share one. -/
theorem C24_exclusive {es es' : List Elem} {outs : List OutObj} {minTurn : Int} {offset : Nat}
    (h : assignManaged es outs minTurn offset = (SUCCESS, es'))
    (hsize : ∀ m, Elem.monitor m ∈ es → m.NeedsOutput minTurn →
      (m.maxP - m.minP + 1) * m.numStores < 2^64)
    (hdist : (outs.map (·.addr)).Nodup) {j j' : Nat} (hne : j ≠ j') {m m' n n' : Mon}
    (hj : es[j]? = some (.monitor m)) (hn : m.NeedsOutput minTurn)
    (hj' : es[j']? = some (.monitor m')) (hn' : m'.NeedsOutput minTurn)
    (ho : es'[j]? = some (.monitor n)) (ho' : es'[j']? = some (.monitor n')) :
    n.outAddr ≠ n'.outAddr := by
  obtain ⟨-, -, -, h4⟩ := C24_assign h hsize
  obtain ⟨o, c, a, -, -, d⟩ := h4 j m hj hn
  obtain ⟨o', c', a', -, -, d'⟩ := h4 j' m' hj' hn'
  rw [ho] at d
  rw [ho'] at d'
  simp at d d'
  subst d d'
  simp only
  intro heq
  have key : offset + needsBefore minTurn es j = offset + needsBefore minTurn es j' := by
    have e1 : (outs.map (·.addr))[offset + needsBefore minTurn es j]? = some o.addr := by
      rw [List.getElem?_map, a]; rfl
    have e2 : (outs.map (·.addr))[offset + needsBefore minTurn es j']? = some o'.addr := by
      rw [List.getElem?_map, a']; rfl
    have hlt : offset + needsBefore minTurn es j < (outs.map (·.addr)).length := by
      by_contra hc
      rw [List.getElem?_eq_none (by omega)] at e1; simp at e1
    exact (List.getElem?_inj hlt hdist).1 (by rw [e1, e2, heq])
  rcases Nat.lt_or_gt_of_ne hne with hlt | hlt
  · have := needsBefore_lt hlt hj hn; omega
  · have := needsBefore_lt hlt hj' hn'; omega

/-- a lattice with two active monitors (particles 0..1, 2 and 3 stores), an inactive one and other
elements -/
def exampleLattice : List Elem :=
  [.other, .monitor ⟨2, 0, 1, 0, 1, 0, 0, 1⟩, .monitor ⟨0, 0, 1, 0, 1, 0, 0, 1⟩,
   .monitor ⟨3, 5, 1, 0, 1, 0, 0, 1⟩, .other]

/-- an output buffer with an element-by-element object in front and room for both monitors -/
def exampleOuts : List OutObj := [⟨1000, some 40⟩, ⟨2000, some 4⟩, ⟨3000, some 6⟩]

/-- the example lattice after the assignment -/
def exampleAssigned : List Elem :=
  [.other, .monitor ⟨2, 0, 1, 2000, 1, 0, 0, 1⟩, .monitor ⟨0, 0, 1, 0, 1, 0, 0, 1⟩,
   .monitor ⟨3, 5, 1, 3000, 1, 0, 0, 1⟩, .other]

private theorem exampleSizes : ∀ m, Elem.monitor m ∈ exampleLattice → m.NeedsOutput 0 →
    (m.maxP - m.minP + 1) * m.numStores < 2^64 := by
  intro m hm _
  simp [exampleLattice] at hm
  rcases hm with rfl | rfl | rfl <;> decide

example : (2000 : Nat) ≠ 3000 :=
  C24_exclusive (es := exampleLattice) (es' := exampleAssigned) (outs := exampleOuts)
    (minTurn := 0) (offset := 1) (j := 1) (j' := 3) (by decide) exampleSizes (by decide) (by decide)
    rfl (by decide) rfl (by decide) rfl rfl

/-- "Inactive monitors get none" fails for a monitor with a stale address: neither preparing nor
assigning an output clears it, so it keeps writing to the old address. -/
theorem C24_inactive_keeps_stale_address_violated :
    ∃ (es : List Elem) (m : Mon), Elem.monitor m ∈ es ∧ ¬ m.NeedsOutput 0 ∧ m.outAddr ≠ 0 ∧
      let p := prepareDetailed es [] 0 1 0 (fun k => 5000 + k)
      p.1 = SUCCESS ∧ (assignManaged p.2.1 p.2.2.1 0 p.2.2.2).1 = SUCCESS ∧
        Elem.monitor m ∈ (assignManaged p.2.1 p.2.2.1 0 p.2.2.2).2 :=
  ⟨[.monitor ⟨0, 0, 1, 1234, 1, 0, 0, 1⟩, .monitor ⟨2, 0, 1, 0, 1, 0, 0, 1⟩],
    ⟨0, 0, 1, 1234, 1, 0, 0, 1⟩, by decide, by decide, by decide, by decide⟩

/-! ## C25 -/

/-- the monitor is active: it starts at or after the first turn and stores at least one turn -/
def Monitor.Mon.IsActive (m : Mon) (firstTurn : Int) : Prop :=
  firstTurn ≤ m.start ∧ 0 < m.numStores

instance (m : Mon) (t : Int) : Decidable (m.IsActive t) := by
  unfold Mon.IsActive; infer_instance

/-- Every inactive monitor is followed by an active one. -/
def NoTrailingInactive (firstTurn : Int) (es : List Elem) : Prop :=
  ∀ (j : Nat) m, es[j]? = some (.monitor m) → ¬ m.IsActive firstTurn →
    ∃ (j' : Nat) (m' : Mon), j < j' ∧ es[j']? = some (.monitor m') ∧ m'.IsActive firstTurn

private theorem prepareLoop_nil_iff (minP maxP t : Int) (fresh : Nat → Nat) (es : List Elem)
    (k : Nat) : (prepareLoop minP maxP t fresh es k).2 = [] ↔
      ∀ (j : Nat) m, es[j]? = some (.monitor m) → ¬ m.IsActive t := by
  induction es generalizing k with
  | nil => simp [prepareLoop]
  | cons e es ih =>
    cases e with
    | other =>
      simp only [prepareLoop, ih]
      constructor
      · intro h j m hj
        cases j with
        | zero => simp at hj
        | succ j => exact h j m (by simpa using hj)
      · intro h j m hj
        exact h (j + 1) m (by simpa using hj)
    | monitor m0 =>
      simp only [prepareLoop]
      split
      · rename_i ha
        constructor
        · intro h; simp at h
        · intro h
          exact absurd ((active_iff m0 t).1 ha) (h 0 m0 (by simp))
      · rename_i ha
        simp only [ih]
        constructor
        · intro h j m hj
          cases j with
          | zero =>
            simp at hj; subst hj
            exact fun hc => ha ((active_iff m0 t).2 hc)
          | succ j => exact h j m (by simpa using hj)
        · intro h j m hj
          exact h (j + 1) m (by simpa using hj)

private theorem noTrailing_other (t : Int) (es : List Elem) :
    NoTrailingInactive t (.other :: es) ↔ NoTrailingInactive t es := by
  constructor
  · intro h j m hj hm
    obtain ⟨j', m', h1, h2, h3⟩ := h (j + 1) m (by simpa using hj) hm
    cases j' with
    | zero => omega
    | succ j' => exact ⟨j', m', by omega, by simpa using h2, h3⟩
  · intro h j m hj hm
    cases j with
    | zero => simp at hj
    | succ j =>
      obtain ⟨j', m', h1, h2, h3⟩ := h j m (by simpa using hj) hm
      exact ⟨j' + 1, m', by omega, by simpa using h2, h3⟩

private theorem noTrailing_monitor (t : Int) (es : List Elem) (m0 : Mon) :
    NoTrailingInactive t (.monitor m0 :: es) ↔
      NoTrailingInactive t es ∧
        (m0.IsActive t ∨ ∃ (j : Nat) (m : Mon), es[j]? = some (.monitor m) ∧ m.IsActive t) := by
  constructor
  · intro h
    constructor
    · intro j m hj hm
      obtain ⟨j', m', h1, h2, h3⟩ := h (j + 1) m (by simpa using hj) hm
      cases j' with
      | zero => omega
      | succ j' => exact ⟨j', m', by omega, by simpa using h2, h3⟩
    · by_cases ha : m0.IsActive t
      · exact Or.inl ha
      · right
        obtain ⟨j', m', h1, h2, h3⟩ := h 0 m0 (by simp) ha
        cases j' with
        | zero => omega
        | succ j' => exact ⟨j', m', by simpa using h2, h3⟩
  · rintro ⟨h, ha⟩ j m hj hm
    cases j with
    | zero =>
      simp at hj; subst hj
      rcases ha with ha | ⟨j', m', h2, h3⟩
      · exact absurd ha hm
      · exact ⟨j' + 1, m', by omega, by simpa using h2, h3⟩
    | succ j =>
      obtain ⟨j', m', h1, h2, h3⟩ := h j m (by simpa using hj) hm
      exact ⟨j' + 1, m', by omega, by simpa using h2, h3⟩

private theorem assign_prepared_loop {minP maxP t : Int} (hmm : minP ≤ maxP) (fresh : Nat → Nat)
    (es : List Elem) (k : Nat) :
    (assignLoop t (prepareLoop minP maxP t fresh es k).1 (prepareLoop minP maxP t fresh es k).2).1
      = SUCCESS ↔ NoTrailingInactive t es := by
  induction es generalizing k with
  | nil =>
    simp [prepareLoop, assignLoop, NoTrailingInactive]
  | cons e es ih =>
    cases e with
    | other =>
      simp only [prepareLoop, assignLoop]
      rw [noTrailing_other]; exact ih k
    | monitor m0 =>
      rw [noTrailing_monitor]
      simp only [prepareLoop]
      split
      · rename_i ha
        have ha' := (active_iff m0 t).1 ha
        have hact : ({ m0 with minP := minP, maxP := maxP, outAddr := 0 } : Mon).active t = true :=
          (active_iff _ t).2 ha'
        have hppt : ({ m0 with minP := minP, maxP := maxP, outAddr := 0 } : Mon).particlesPerTurn
            = 1 + maxP - minP := by
          unfold Mon.particlesPerTurn
          simp only [hmm, if_true]; omega
        simp only [assignLoop, hact, if_true, hppt, Option.getD_some, Option.isSome_some, le_refl,
          and_true]
        rw [if_pos (by omega)]
        simp only
        rw [ih (k + 1)]
        exact ⟨fun h => ⟨h, Or.inl ha'⟩, fun h => h.1⟩
      · rename_i ha
        have hna : ¬ m0.IsActive t := fun hc => ha ((active_iff m0 t).2 hc)
        have hf : m0.active t = false := by simpa using ha
        cases hos : (prepareLoop minP maxP t fresh es k).2 with
        | nil =>
          simp only [assignLoop]
          constructor
          · intro h; simp [SUCCESS, FAILURE] at h
          · rintro ⟨-, h | ⟨j, m, h1, h2⟩⟩
            · exact absurd h hna
            · exact absurd h2 ((prepareLoop_nil_iff minP maxP t fresh es k).1 hos j m h1)
        | cons o os =>
          simp only [assignLoop, hf]
          have := ih k
          rw [hos] at this
          simp only [Bool.false_eq_true, if_false]
          rw [this]
          refine ⟨fun h => ⟨h, Or.inr ?_⟩, fun h => h.1⟩
          by_contra hc
          have : (prepareLoop minP maxP t fresh es k).2 = [] := by
            rw [prepareLoop_nil_iff]
            intro j m hj ha; exact hc ⟨j, m, hj, ha⟩
          rw [hos] at this; simp at this

/-- **C25, part**: assigning the output buffer that was prepared for a lattice succeeds exactly if
every inactive monitor is followed by an active one.  Missing: lattices that end with an inactive
monitor (see `C25_violated`). -/
theorem C25_prepared_can_be_assigned_partial {es es' : List Elem} {outs outs' : List OutObj}
    {minP maxP minTurn : Int} {fresh : Nat → Nat} {offset : Nat}
    (h : prepareDetailed es outs minP maxP minTurn fresh = (SUCCESS, es', outs', offset)) :
    (assignManaged es' outs' minTurn offset).1 = SUCCESS ↔ NoTrailingInactive minTurn es := by
  unfold prepareDetailed at h
  split at h
  · simp [SUCCESS, FAILURE] at h
  · rename_i hc
    simp only [Prod.mk.injEq, true_and] at h
    obtain ⟨rfl, rfl, rfl⟩ := h
    unfold assignManaged
    rw [if_pos (by simp), List.drop_left]
    exact assign_prepared_loop (by omega) fresh es 0

example : (assignManaged (prepareDetailed exampleLattice [⟨1000, some 40⟩] 0 1 0 (5000 + ·)).2.1
    (prepareDetailed exampleLattice [⟨1000, some 40⟩] 0 1 0 (5000 + ·)).2.2.1 0 1).1 = SUCCESS :=
  (C25_prepared_can_be_assigned_partial (es := exampleLattice) (outs := [⟨1000, some 40⟩])
    (minP := 0) (maxP := 1) (fresh := (5000 + ·)) rfl).2 (by
      intro j m hj hm
      have hjl : j < 5 := by
        by_contra hc
        rw [List.getElem?_eq_none (by simp [exampleLattice]; omega)] at hj; simp at hj
      refine ⟨3, ⟨3, 5, 1, 0, 1, 0, 0, 1⟩, ?_, rfl, by decide⟩
      match j, hjl with
      | 0, _ => simp [exampleLattice] at hj
      | 1, _ => simp [exampleLattice] at hj; subst hj; exact absurd (by decide) hm
      | 2, _ => omega
      | 3, _ => simp [exampleLattice] at hj; subst hj; exact absurd (by decide) hm
      | 4, _ => simp [exampleLattice] at hj)

/-- In general a prepared output buffer cannot be assigned: one inactive monitor at the end of the
lattice makes the assignment fail.  It also fails for every lattice with a single element if
element-by-element output was requested. -/
theorem C25_violated :
    (∃ es : List Elem, ∃ es' outs' offset,
      prepareDetailed es [] 0 1 0 (fun k => 5000 + k) = (SUCCESS, es', outs', offset) ∧
      (assignManaged es' outs' 0 offset).1 = FAILURE) ∧
    (∀ (e : Elem) (outs : List OutObj), (assignOutput [e] outs 0 10).1 = FAILURE) := by
  constructor
  · exact ⟨[.monitor ⟨2, 0, 1, 0, 1, 0, 0, 1⟩, .monitor ⟨0, 0, 1, 0, 1, 0, 0, 1⟩],
      _, _, _, rfl, by decide⟩
  · intro e outs
    simp [assignOutput]

/-! ## C26 -/

/-- **C26, part**: if every monitor of the lattice starts at or after the first turn and the
record numbers are representable, the predicted numbers of objects, slots and data pointers are
those of the objects that are created.  Missing: monitors that start earlier (see
`C26_violated`). -/
theorem C26_prediction_partial {es es' : List Elem} {outs outs' : List OutObj}
    {minP maxP minTurn : Int} {fresh : Nat → Nat} {offset : Nat}
    (h : prepareDetailed es outs minP maxP minTurn fresh = (SUCCESS, es', outs', offset))
    (hstart : ∀ m, Elem.monitor m ∈ es → minTurn ≤ m.start ∧ 0 ≤ m.numStores ∧
      (maxP - minP + 1) * m.numStores < 2^64) (slots : Nat → Nat) (nptrs : Nat) :
    ∃ new : List Nat, offset = outs.length ∧ (outs'.drop offset).map (·.particles) = new.map some ∧
      predict es minP maxP minTurn slots nptrs =
        some (new.length, (new.map slots).sum, nptrs * new.length) := by
  unfold prepareDetailed at h
  split at h
  · simp [SUCCESS, FAILURE] at h
  · rename_i hc
    simp only [Prod.mk.injEq, true_and] at h
    obtain ⟨rfl, rfl, rfl⟩ := h
    rw [List.drop_left]
    refine ⟨predictLoop (maxP - minP + 1) minTurn es, rfl, ?_, ?_⟩
    · have : ∀ k, (prepareLoop minP maxP minTurn fresh es k).2.map (·.particles) =
          (predictLoop (maxP - minP + 1) minTurn es).map some := by
        have hle : minP ≤ maxP := by omega
        clear hc
        induction es with
        | nil => intro k; simp [prepareLoop, predictLoop]
        | cons e es ih =>
          have ih' := ih (fun m hm => hstart m (by simp [hm]))
          intro k
          cases e with
          | other => simp only [prepareLoop, predictLoop]; exact ih' k
          | monitor m0 =>
            obtain ⟨a1, a2, a3⟩ := hstart m0 (by simp)
            simp only [prepareLoop, predictLoop]
            have hreq : requiredParticles m0 (maxP - minP + 1) minTurn
                = mulU64 (maxP - minP + 1) m0.numStores := by
              unfold requiredParticles; rw [if_pos (Or.inl a1)]
            rw [hreq]
            have hcomm : mulU64 (1 + maxP - minP) m0.numStores
                = mulU64 (maxP - minP + 1) m0.numStores := by
              congr 1; omega
            by_cases hz : 0 < m0.numStores
            · rw [if_pos ((active_iff m0 minTurn).2 ⟨a1, hz⟩)]
              by_cases hpos : 0 < mulU64 (maxP - minP + 1) m0.numStores
              · rw [if_pos hpos]
                simp only [List.map_cons, hcomm]
                rw [ih']
              · exfalso
                apply hpos
                unfold mulU64
                have h1 : 1 ≤ (maxP - minP + 1) * m0.numStores :=
                  one_le_mul' (by omega) (by omega)
                rw [Int.emod_eq_of_lt (by omega) a3]
                omega
            · have hz' : m0.numStores = 0 := by omega
              have hna : ¬ (m0.active minTurn = true) := by
                rw [active_iff]; omega
              rw [if_neg hna, hz']
              have : mulU64 (maxP - minP + 1) 0 = 0 := by simp [mulU64]
              rw [this, if_neg (by omega)]
              exact ih' k
      exact this 0
    · unfold predict
      rw [if_pos (by omega)]

example : ∃ new : List Nat, 1 = 1 ∧
    (([⟨1000, some 40⟩, ⟨5000, some 4⟩, ⟨5001, some 6⟩] : List OutObj).drop 1).map (·.particles)
      = new.map some ∧ predict exampleLattice 0 1 0 (fun n => 10 + 4 * n) 21 =
        some (new.length, (new.map fun n => 10 + 4 * n).sum, 21 * new.length) :=
  C26_prediction_partial (es := exampleLattice) (outs := [⟨1000, some 40⟩])
    (fresh := (5000 + ·)) rfl (by
      intro m hm
      simp [exampleLattice] at hm
      rcases hm with rfl | rfl | rfl <;> decide) (fun n => 10 + 4 * n) 21

/-- In general the prediction is wrong: for a rolling monitor that starts before the first turn an
output object is predicted that is never created, and likewise for one that is not rolling. -/
theorem C26_violated :
    (∃ es : List Elem, ∃ m ∈ es.head?, (∃ m', m = Elem.monitor m' ∧ m'.isRolling = true) ∧
      (predict es 0 1 5 (fun _ => 1) 21).map (·.1) = some 1 ∧
      (prepareDetailed es [] 0 1 5 id).1 = SUCCESS ∧
      (prepareDetailed es [] 0 1 5 id).2.2.1.length = 0) ∧
    (∃ es : List Elem, ∃ m ∈ es.head?, (∃ m', m = Elem.monitor m' ∧ m'.isRolling = false) ∧
      (predict es 0 1 5 (fun _ => 1) 21).map (·.1) = some 1 ∧
      (prepareDetailed es [] 0 1 5 id).1 = SUCCESS ∧
      (prepareDetailed es [] 0 1 5 id).2.2.1.length = 0) :=
  ⟨⟨[.monitor ⟨2, 0, 1, 0, 1, 0, 1, 1⟩], _, rfl, ⟨_, rfl, rfl⟩, by decide, by decide, by decide⟩,
   ⟨[.monitor ⟨20, 0, 1, 0, 1, 0, 0, 1⟩], _, rfl, ⟨_, rfl, rfl⟩, by decide, by decide, by decide⟩⟩

/-! ## C47: the query whether a turn is stored -/

/-- After the turns `0 .. n-1` have passed the monitor, the record of turn `turn` is in the
output: it is one of the selected turns, it has passed, and it has not been overwritten (compare
`C22_history`). -/
def TurnKept (m : Mon) (turn n : Int) : Prop :=
  turn < n ∧ ∃ k, 0 ≤ k ∧ turn = m.start + k * m.skip ∧
    ((m.isRolling = false ∧ k < m.numStores) ∨
      (m.isRolling = true ∧ n - 1 < m.start + (k + m.numStores) * m.skip))

/-- **C47, part**: for turns before turn `n` the query answers correctly.  Missing: turn `n`
itself, see `C47_violated`. -/
theorem C47_has_turn_stored_partial {m : Mon} (hs : 0 ≤ m.start) (hn : 0 < m.numStores)
    (hk : 0 < m.skip) {turn n : Int} (ht : turn < n) :
    m.hasTurnStored turn n = true ↔ TurnKept m turn n := by
  unfold Mon.hasTurnStored TurnKept
  by_cases h1 : m.start ≤ turn
  · rw [if_pos ⟨hs, h1, hn, hk, Or.inl (by omega)⟩]
    have hsince : 0 ≤ turn - m.start := by omega
    simp only
    rw [Int.tmod_eq_emod_of_nonneg hsince, Int.tdiv_eq_ediv_of_nonneg hsince]
    have hdm := Int.emod_add_mul_ediv (turn - m.start) m.skip
    have hq0 : 0 ≤ (turn - m.start) / m.skip := Int.ediv_nonneg hsince (by omega)
    by_cases hz : (turn - m.start) % m.skip = 0
    · rw [if_pos hz]
      have hex : turn = m.start + (turn - m.start) / m.skip * m.skip := by
        rw [mul_comm]; omega
      have huniq : ∀ k, turn = m.start + k * m.skip → k = (turn - m.start) / m.skip := by
        intro k hk'
        have : turn - m.start = k * m.skip := by omega
        rw [this, Int.mul_ediv_cancel k (by omega)]
      by_cases hr : m.isRolling = false
      · rw [if_pos hr, decide_eq_true_iff]
        constructor
        · intro h; exact ⟨ht, _, hq0, hex, Or.inl ⟨hr, h⟩⟩
        · rintro ⟨-, k, h0, he, h | h⟩
          · rw [← huniq k he]; exact h.2
          · rw [hr] at h; simp at h
      · have hr' : m.isRolling = true := by simpa using hr
        rw [if_neg hr, if_pos (by omega), decide_eq_true_iff]
        have hM : 0 ≤ n - m.start := by omega
        rw [Int.tmod_eq_emod_of_nonneg hM, Int.tdiv_eq_ediv_of_nonneg hM]
        have hdm' := Int.emod_add_mul_ediv (n - m.start) m.skip
        have hm0 := Int.emod_nonneg (n - m.start) (b := m.skip) (by omega)
        have hm1 := Int.emod_lt_of_pos (n - m.start) hk
        -- ceiling division
        have hceil : ∀ a, ((n - m.start) / m.skip +
            (if (n - m.start) % m.skip ≠ 0 then 1 else 0) ≤ a ↔ n - 1 < m.start + a * m.skip) := by
          intro a
          have hmul : ∀ b : Int, b ≤ a → m.skip * b ≤ a * m.skip := by
            intro b hb; rw [mul_comm]; exact mul_le_mul_of_nonneg_right hb (by omega)
          have hmul' : ∀ b : Int, a < b → a * m.skip + m.skip ≤ m.skip * b := by
            intro b hb
            have : (a + 1) * m.skip ≤ b * m.skip := mul_le_mul_of_nonneg_right (by omega) (by omega)
            have e : (a + 1) * m.skip = a * m.skip + m.skip := by ring
            rw [mul_comm m.skip b]; omega
          by_cases hzz : (n - m.start) % m.skip = 0
          · simp only [hzz, ne_eq, not_true, if_false, Int.add_zero]
            constructor
            · intro h; have := hmul _ h; omega
            · intro h; by_contra hc; have := hmul' ((n - m.start) / m.skip) (by omega); omega
          · simp only [hzz, ne_eq, not_false_iff, if_true]
            constructor
            · intro h
              have := hmul _ h
              have e : m.skip * ((n - m.start) / m.skip + 1)
                = m.skip * ((n - m.start) / m.skip) + m.skip := by ring
              omega
            · intro h; by_contra hc
              have := hmul ((n - m.start) / m.skip)
              have h3 : a ≤ (n - m.start) / m.skip := by omega
              have h4 : a * m.skip ≤ m.skip * ((n - m.start) / m.skip) := by
                rw [mul_comm m.skip]; exact mul_le_mul_of_nonneg_right h3 (by omega)
              omega
        rw [hceil]
        constructor
        · intro h; exact ⟨ht, _, hq0, hex, Or.inr ⟨hr', h⟩⟩
        · rintro ⟨-, k, h0, he, h | h⟩
          · rw [hr'] at h; simp at h
          · rw [← huniq k he]; exact h.2
    · rw [if_neg hz]
      constructor
      · intro h; simp at h
      · rintro ⟨-, k, h0, he, -⟩
        exfalso
        apply hz
        have : turn - m.start = k * m.skip := by omega
        rw [this, Int.mul_emod_left]
  · rw [if_neg (by omega)]
    constructor
    · intro h; simp at h
    · rintro ⟨-, k, h0, he, -⟩
      exfalso
      have : 0 ≤ k * m.skip := mul_nonneg h0 (by omega)
      omega

example : (⟨5, 7, 3, 0, 1, 0, 1, 1⟩ : Mon).hasTurnStored 34 40 = true ↔
    TurnKept ⟨5, 7, 3, 0, 1, 0, 1, 1⟩ 34 40 :=
  C47_has_turn_stored_partial (by decide) (by decide) (by decide) (by decide)

/-- In general the answer is wrong: a turn that has not been tracked yet is reported as stored; and
with "unlimited" turns (a negative number) a rolling monitor reports no turn at all. -/
theorem C47_violated :
    (∃ (m : Mon) (n : Int), 0 ≤ m.start ∧ 0 < m.numStores ∧ 0 < m.skip ∧
      m.hasTurnStored n n = true ∧ ¬ TurnKept m n n) ∧
    (∀ m : Mon, m.isRolling = true → ∀ turn, m.hasTurnStored turn (-1) = false) := by
  constructor
  · refine ⟨⟨5, 0, 1, 0, 1, 0, 0, 1⟩, 3, by decide, by decide, by decide, by decide, ?_⟩
    rintro ⟨h, -⟩; omega
  · intro m hr turn
    unfold Mon.hasTurnStored
    split
    · rename_i h
      obtain ⟨h0, -⟩ := h
      simp only [hr]
      split
      · rw [if_neg (by simp), if_neg (by omega)]
      · rfl
    · rfl

end SixTrack
