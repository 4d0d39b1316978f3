import Verif.ElemByElemLemmas
import Mathlib.Data.List.Induction

/-!
# Properties C19, C20, C21: element-by-element output records

The configuration is whatever a successful `initDetailed` returns; the theorems
are stated in terms of the arguments passed to it.
-/

namespace SixTrack
open EBE

/-- The configuration `cfg` was set up (in turn-element-particle order) for the given
particle, element and turn ranges. -/
def ConfiguredFor (cfg : Cfg) (minP maxP minE maxE minT maxT : Int) (roll : Bool) : Prop :=
  I64 maxP ∧ I64 maxE ∧ I64 maxT ∧
  ∃ c0 : Cfg, c0.initDetailed ORDER_TEP minP maxP minE maxE minT maxT roll = .ok (SUCCESS, cfg)

/-- Number of records for the given ranges. -/
def numRecords (minP maxP minE maxE minT maxT : Int) : Int :=
  (maxP - minP + 1) * (maxE - minE + 1) * (maxT - minT + 1)

/-- A concrete configuration: 3 particles (ids 2..4), 2 elements (ids 1, 2), turns 5..8. -/
def exampleCfg (roll : Bool) : Cfg :=
  { order := 0, numP := 3, numE := 2, numT := 4, minP := 2, minE := 1, minT := 5,
    maxP := 4, maxE := 2, maxT := 8, rolling := if roll then 1 else 0, outAddr := 0 }

theorem exampleCfg_configured (roll : Bool) :
    ConfiguredFor (exampleCfg roll) 2 4 1 2 5 8 roll := by
  refine ⟨by decide, by decide, by decide,
    { order := 7, numP := 9, numE := 9, numT := 9, minP := 0, minE := 0, minT := 0,
      maxP := 0, maxE := 0, maxT := 0, rolling := 1, outAddr := 77 }, ?_⟩
  cases roll <;> decide

private theorem cfg_facts {cfg : Cfg} {minP maxP minE maxE minT maxT : Int} {roll : Bool}
    (h : ConfiguredFor cfg minP maxP minE maxE minT maxT roll) :
    cfg.WF ∧ cfg.order = ORDER_TEP ∧ cfg.isRolling = roll ∧ cfg.minP = minP ∧ cfg.maxP = maxP ∧
      cfg.minE = minE ∧ cfg.maxE = maxE ∧ cfg.minT = minT ∧ cfg.maxT = maxT ∧
      cfg.numP * cfg.numE * cfg.numT = numRecords minP maxP minE maxE minT maxT := by
  obtain ⟨hP, hE, hT, c0, h⟩ := h
  obtain ⟨w, a, b, c, d, e, f, g, i⟩ := initDetailed_wf hP hE hT h
  refine ⟨w, a, b, c, d, e, f, g, i, ?_⟩
  rw [w.np, w.ne, w.nt, c, d, e, f, g, i, numRecords]

/-- **C19 (range)**: every particle/element/turn in the configured range has a record inside
the output. -/
theorem C19_record_in_output {cfg : Cfg} {minP maxP minE maxE minT maxT p e t : Int} {roll : Bool}
    (h : ConfiguredFor cfg minP maxP minE maxE minT maxT roll)
    (hcap : numRecords minP maxP minE maxE minT maxT < 2^63)
    (hp : minP ≤ p ∧ p ≤ maxP) (he : minE ≤ e ∧ e ≤ maxE) (ht : minT ≤ t ∧ t ≤ maxT) :
    ∃ i, cfg.storeIndex p e t = .ok i ∧ 0 ≤ i ∧ i < numRecords minP maxP minE maxE minT maxT := by
  have hT := h.2.2.1
  obtain ⟨w, ho, hr, rfl, rfl, rfl, rfl, rfl, rfl, hn⟩ := cfg_facts h
  rw [← hn] at hcap ⊢
  have hNT : 1 ≤ cfg.numT := by have := w.nt; have := w.t1; omega
  have hNP : 1 ≤ cfg.numP := by have := w.np; have := w.p1; omega
  have hNE : 1 ≤ cfg.numE := by have := w.ne; have := w.e1; omega
  have hN : 1 ≤ cfg.numP * cfg.numE := one_le_mul' hNP hNE
  have hov : (t - cfg.minT + 1) * (cfg.numP * cfg.numE) ≤ cfg.numP * cfg.numE * cfg.numT := by
    rw [mul_comm (cfg.numP * cfg.numE)]
    exact mul_le_mul_of_nonneg_right (by have := w.nt; omega) (by omega)
  refine ⟨_, storeIndex_eq w ho hp he ht.1 ⟨by have := w.t0; omega, by have := hT.2; omega⟩
    (Or.inl ht.2) hcap (by omega), ?_, ?_⟩
  · apply Int.emod_nonneg
    have := one_le_mul' hN hNT; omega
  · apply Int.emod_lt_of_pos
    have := one_le_mul' hN hNT; omega

example : ∃ i, (exampleCfg false).storeIndex 3 2 7 = .ok i ∧ 0 ≤ i ∧ i < 24 :=
  C19_record_in_output (exampleCfg_configured false) (by decide) (by decide) (by decide)
    (by decide)

/-- **C19 (no collision)**: different (particle, element, turn) combinations in the configured
range have different records. -/
theorem C19_records_distinct {cfg : Cfg} {minP maxP minE maxE minT maxT p e t p' e' t' : Int}
    {roll : Bool} (h : ConfiguredFor cfg minP maxP minE maxE minT maxT roll)
    (hcap : numRecords minP maxP minE maxE minT maxT < 2^63)
    (hp : minP ≤ p ∧ p ≤ maxP) (he : minE ≤ e ∧ e ≤ maxE) (ht : minT ≤ t ∧ t ≤ maxT)
    (hp' : minP ≤ p' ∧ p' ≤ maxP) (he' : minE ≤ e' ∧ e' ≤ maxE) (ht' : minT ≤ t' ∧ t' ≤ maxT)
    (heq : cfg.storeIndex p e t = cfg.storeIndex p' e' t') : p = p' ∧ e = e' ∧ t = t' := by
  have hT := h.2.2.1
  obtain ⟨w, ho, hr, rfl, rfl, rfl, rfl, rfl, rfl, hn⟩ := cfg_facts h
  rw [← hn] at hcap
  have hNT : 1 ≤ cfg.numT := by have := w.nt; have := w.t1; omega
  have hNP : 1 ≤ cfg.numP := by have := w.np; have := w.p1; omega
  have hNE : 1 ≤ cfg.numE := by have := w.ne; have := w.e1; omega
  have hN : 1 ≤ cfg.numP * cfg.numE := one_le_mul' hNP hNE
  have hov : ∀ s, s ≤ cfg.maxT →
      (s - cfg.minT + 1) * (cfg.numP * cfg.numE) ≤ cfg.numP * cfg.numE * cfg.numT := by
    intro s hs
    rw [mul_comm (cfg.numP * cfg.numE)]
    exact mul_le_mul_of_nonneg_right (by have := w.nt; omega) (by omega)
  have o1 := hov t ht.2
  have o2 := hov t' ht'.2
  rw [storeIndex_eq w ho hp he ht.1 ⟨by have := w.t0; omega, by have := hT.2; omega⟩
      (Or.inl ht.2) hcap (by omega),
    storeIndex_eq w ho hp' he' ht'.1 ⟨by have := w.t0; omega, by have := hT.2; omega⟩
      (Or.inl ht'.2) hcap (by omega), Res.ok_inj] at heq
  have wp := w.np
  have we := w.ne
  have wt := w.nt
  rw [lin_mod_cap (by omega) (by omega) (by omega), lin_mod_cap (by omega) (by omega) (by omega),
    Int.emod_eq_of_lt (by omega) (by omega), Int.emod_eq_of_lt (by omega) (by omega)] at heq
  have := lin_inj (by omega) (by omega) (by omega) (by omega) heq
  omega

example : (exampleCfg true).storeIndex 3 2 7 ≠ (exampleCfg true).storeIndex 4 2 6 := fun h =>
  absurd (C19_records_distinct (exampleCfg_configured true) (by decide) (by decide) (by decide)
    (by decide) (by decide) (by decide) (by decide) h).1 (by decide)

/-- **C19 (nothing else is stored)**: outside the configured ranges nothing is stored (index -1),
except for later turns of a rolling configuration. -/
theorem C19_outside_not_stored {cfg : Cfg} {minP maxP minE maxE minT maxT p e t : Int} {roll : Bool}
    (h : ConfiguredFor cfg minP maxP minE maxE minT maxT roll)
    (hout : ¬ (minP ≤ p ∧ p ≤ maxP) ∨ ¬ (minE ≤ e ∧ e ≤ maxE) ∨ t < minT ∨
      (maxT < t ∧ roll = false)) :
    cfg.storeIndex p e t = .ok (-1) := by
  obtain ⟨w, ho, hr, rfl, rfl, rfl, rfl, rfl, rfl, hn⟩ := cfg_facts h
  unfold Cfg.storeIndex
  rw [if_neg]
  · rfl
  · rintro ⟨a, b, c, d, e, f⟩
    rcases hout with h | h | h | ⟨h, h'⟩
    · omega
    · omega
    · omega
    · rcases f with f | f
      · omega
      · rw [hr, h'] at f; simp at f

example : (exampleCfg false).storeIndex 3 2 9 = .ok (-1) :=
  C19_outside_not_stored (exampleCfg_configured false) (by decide)

/-- **C20 (decode after encode)**: decoding the record index of an in-range combination returns
the particle, the element and the turn. -/
theorem C20_decode_encode {cfg : Cfg} {minP maxP minE maxE minT maxT p e t : Int} {roll : Bool}
    (h : ConfiguredFor cfg minP maxP minE maxE minT maxT roll)
    (hcap : numRecords minP maxP minE maxE minT maxT < 2^63)
    (hp : minP ≤ p ∧ p ≤ maxP) (he : minE ≤ e ∧ e ≤ maxE) (ht : minT ≤ t ∧ t ≤ maxT) :
    ∃ i, cfg.storeIndex p e t = .ok i ∧
      cfg.particleOf i = .ok p ∧ cfg.elemOf i = .ok e ∧ cfg.turnOf i = .ok t := by
  obtain ⟨i, hi, h0, h1⟩ := C19_record_in_output h hcap hp he ht
  have hT := h.2.2.1
  obtain ⟨w, ho, hr, rfl, rfl, rfl, rfl, rfl, rfl, hn⟩ := cfg_facts h
  rw [← hn] at hcap h1
  have hNT : 1 ≤ cfg.numT := by have := w.nt; have := w.t1; omega
  have hNP : 1 ≤ cfg.numP := by have := w.np; have := w.p1; omega
  have hNE : 1 ≤ cfg.numE := by have := w.ne; have := w.e1; omega
  have hN : 1 ≤ cfg.numP * cfg.numE := one_le_mul' hNP hNE
  have hov : (t - cfg.minT + 1) * (cfg.numP * cfg.numE) ≤ cfg.numP * cfg.numE * cfg.numT := by
    rw [mul_comm (cfg.numP * cfg.numE)]
    exact mul_le_mul_of_nonneg_right (by have := w.nt; omega) (by omega)
  have hs := storeIndex_eq w ho hp he ht.1 ⟨by have := w.t0; omega, by have := hT.2; omega⟩
    (Or.inl ht.2) hcap (by omega)
  have wp := w.np
  have we := w.ne
  have wt := w.nt
  rw [lin_mod_cap (by omega) (by omega) (by omega), Int.emod_eq_of_lt (by omega) (by omega)] at hs
  rw [hi, Res.ok_inj] at hs
  obtain ⟨d1, d2, d3, -⟩ := decode_eq w ho hcap h0 h1
  obtain ⟨a, b⟩ := lin_mod (np := cfg.numP) (ne := cfg.numE) (p := p - cfg.minP)
    (e := e - cfg.minE) (t := t - cfg.minT) (by omega) (by omega)
  obtain ⟨a', b'⟩ := row_mod (np := cfg.numP) (p := p - cfg.minP) (e := e - cfg.minE) (by omega)
  rw [← hs] at a b
  rw [a, a'] at d1
  rw [a, b'] at d2
  rw [b] at d3
  refine ⟨i, hi, ?_, ?_, ?_⟩
  · rw [d1]; congr 1; omega
  · rw [d2]; congr 1; omega
  · rw [d3]; congr 1; omega

example : ∃ i, (exampleCfg false).storeIndex 3 2 7 = .ok i ∧
    (exampleCfg false).particleOf i = .ok 3 ∧ (exampleCfg false).elemOf i = .ok 2 ∧
    (exampleCfg false).turnOf i = .ok 7 :=
  C20_decode_encode (exampleCfg_configured false) (by decide) (by decide) (by decide) (by decide)

/-- **C20 (encode after decode)**: every record index decodes to an in-range combination whose
record it is. -/
theorem C20_encode_decode {cfg : Cfg} {minP maxP minE maxE minT maxT i : Int} {roll : Bool}
    (h : ConfiguredFor cfg minP maxP minE maxE minT maxT roll)
    (hcap : numRecords minP maxP minE maxE minT maxT < 2^63)
    (h0 : 0 ≤ i) (h1 : i < numRecords minP maxP minE maxE minT maxT) :
    ∃ p e t, cfg.particleOf i = .ok p ∧ cfg.elemOf i = .ok e ∧ cfg.turnOf i = .ok t ∧
      (minP ≤ p ∧ p ≤ maxP) ∧ (minE ≤ e ∧ e ≤ maxE) ∧ (minT ≤ t ∧ t ≤ maxT) ∧
      cfg.storeIndex p e t = .ok i := by
  have hT := h.2.2.1
  obtain ⟨w, ho, hr, rfl, rfl, rfl, rfl, rfl, rfl, hn⟩ := cfg_facts h
  rw [← hn] at hcap h1
  have wp := w.np
  have we := w.ne
  have wt := w.nt
  have := w.p1
  have := w.e1
  have := w.t1
  have := w.t0
  have hNT : 1 ≤ cfg.numT := by omega
  have hNP : 1 ≤ cfg.numP := by omega
  have hNE : 1 ≤ cfg.numE := by omega
  have hN : 1 ≤ cfg.numP * cfg.numE := one_le_mul' hNP hNE
  obtain ⟨d1, d2, d3, b3, b2, b1⟩ := decode_eq w ho hcap h0 h1
  have m1 := Int.emod_nonneg i (b := cfg.numP * cfg.numE) (by omega)
  have m3 := Int.emod_nonneg (i % (cfg.numP * cfg.numE)) (b := cfg.numP) (by omega)
  have m5 := Int.ediv_nonneg m1 (b := cfg.numP) (by omega)
  have m7 := Int.ediv_nonneg h0 (b := cfg.numP * cfg.numE) (by omega)
  refine ⟨_, _, _, d1, d2, d3, by omega, by omega, by omega, ?_⟩
  have hov : (i / (cfg.numP * cfg.numE) + cfg.minT - cfg.minT + 1) * (cfg.numP * cfg.numE)
      ≤ cfg.numP * cfg.numE * cfg.numT := by
    rw [mul_comm (cfg.numP * cfg.numE)]
    exact mul_le_mul_of_nonneg_right (by omega) (by omega)
  rw [storeIndex_eq w ho (by omega) (by omega) (by omega)
    ⟨by omega, by have := hT.2; omega⟩ (Or.inl (by omega)) hcap (by omega)]
  rw [lin_mod_cap (by omega) (by omega) (by omega),
    Int.emod_eq_of_lt (a := i / (cfg.numP * cfg.numE) + cfg.minT - cfg.minT) (by omega) (by omega)]
  congr 1
  have e1 := Int.emod_add_mul_ediv (i % (cfg.numP * cfg.numE)) cfg.numP
  have e2 := Int.emod_add_mul_ediv i (cfg.numP * cfg.numE)
  simp only [Int.add_sub_cancel, lin]
  have e3 : i / (cfg.numP * cfg.numE) * cfg.numP * cfg.numE
      = cfg.numP * cfg.numE * (i / (cfg.numP * cfg.numE)) := by ring
  have e4 : i % (cfg.numP * cfg.numE) / cfg.numP * cfg.numP
      = cfg.numP * (i % (cfg.numP * cfg.numE) / cfg.numP) := by ring
  omega

example : ∃ p e t, (exampleCfg true).particleOf 17 = .ok p ∧ (exampleCfg true).elemOf 17 = .ok e ∧
    (exampleCfg true).turnOf 17 = .ok t ∧ (2 ≤ p ∧ p ≤ 4) ∧ (1 ≤ e ∧ e ≤ 2) ∧ (5 ≤ t ∧ t ≤ 8) ∧
    (exampleCfg true).storeIndex p e t = .ok 17 :=
  C20_encode_decode (exampleCfg_configured true) (by decide) (by decide) (by decide)

/-! ## C21: rolling output -/

/-- One store event: particle, element, turn. -/
structure StoreEvent where
  p : Int
  e : Int
  t : Int
  deriving DecidableEq, Repr

/-- The output after a sequence of store events: each event is written to the record that the
index function selects (records are labelled with the event that was written last). -/
def storeAll (cfg : Cfg) (evs : List StoreEvent) : Int → Option StoreEvent :=
  evs.foldl (fun out ev i => if cfg.storeIndex ev.p ev.e ev.t = .ok i then some ev else out i)
    (fun _ => none)

private theorem storeAll_append (cfg : Cfg) (a : List StoreEvent) (ev : StoreEvent) (i : Int) :
    storeAll cfg (a ++ [ev]) i =
      if cfg.storeIndex ev.p ev.e ev.t = .ok i then some ev else storeAll cfg a i := by
  simp [storeAll]

/-- **C21 (which records are shared)**: in a rolling configuration two in-range events use the same
record exactly if they belong to the same particle and element and their turns differ by a
multiple of the number of stored turns. -/
theorem C21_shared_record {cfg : Cfg} {minP maxP minE maxE minT maxT p e t p' e' t' : Int}
    (h : ConfiguredFor cfg minP maxP minE maxE minT maxT true)
    (hcap : numRecords minP maxP minE maxE minT maxT < 2^63)
    (hp : minP ≤ p ∧ p ≤ maxP) (he : minE ≤ e ∧ e ≤ maxE) (ht : minT ≤ t) (htI : I64 t)
    (hp' : minP ≤ p' ∧ p' ≤ maxP) (he' : minE ≤ e' ∧ e' ≤ maxE) (ht' : minT ≤ t') (htI' : I64 t')
    (hov : (t - minT + 1) * ((maxP - minP + 1) * (maxE - minE + 1)) < 2^63)
    (hov' : (t' - minT + 1) * ((maxP - minP + 1) * (maxE - minE + 1)) < 2^63) :
    cfg.storeIndex p e t = cfg.storeIndex p' e' t' ↔
      p = p' ∧ e = e' ∧ (t - t') % (maxT - minT + 1) = 0 := by
  obtain ⟨w, ho, hr, rfl, rfl, rfl, rfl, rfl, rfl, hn⟩ := cfg_facts h
  rw [← hn] at hcap
  rw [← w.np, ← w.ne] at hov hov'
  rw [storeIndex_eq w ho hp he ht htI (Or.inr hr) hcap hov,
    storeIndex_eq w ho hp' he' ht' htI' (Or.inr hr) hcap hov', Res.ok_inj]
  have wp := w.np
  have we := w.ne
  have wt := w.nt
  have := w.t1
  rw [lin_mod_cap (by omega) (by omega) (by omega), lin_mod_cap (by omega) (by omega) (by omega)]
  rw [← wt]
  constructor
  · intro hh
    have hi := lin_inj (by omega) (by omega) (by omega) (by omega) hh
    refine ⟨by omega, by omega, ?_⟩
    have h3 := Int.emod_emod_of_dvd (t - cfg.minT) (Int.dvd_refl cfg.numT)
    have : (t - t') % cfg.numT = ((t - cfg.minT) - (t' - cfg.minT)) % cfg.numT := by
      congr 1; omega
    rw [this, Int.sub_emod, hi.2.2, Int.sub_self, Int.zero_emod]
  · rintro ⟨rfl, rfl, hh⟩
    have : (t - cfg.minT) % cfg.numT = (t' - cfg.minT) % cfg.numT := by
      have h4 : t - cfg.minT = (t' - cfg.minT) + (t - t') := by omega
      rw [h4, Int.add_emod, hh, Int.add_zero, Int.emod_emod_of_dvd _ (Int.dvd_refl _)]
    rw [this]

example : (exampleCfg true).storeIndex 3 2 7 = (exampleCfg true).storeIndex 3 2 15 :=
  (C21_shared_record (exampleCfg_configured true) (by decide) (by decide) (by decide) (by decide)
    (by decide) (by decide) (by decide) (by decide) (by decide) (by decide) (by decide)).2
    (by decide)

/-- **C21**: after storing any sequence of in-range events, in the order of their turns and
reaching turn `T`, the record of every event of the most recent `maxT - minT + 1` turns still
holds that event. -/
theorem C21_recent_turns_kept {cfg : Cfg} {minP maxP minE maxE minT maxT T : Int}
    (h : ConfiguredFor cfg minP maxP minE maxE minT maxT true)
    (hcap : numRecords minP maxP minE maxE minT maxT < 2^63)
    (hov : (T - minT + 1) * ((maxP - minP + 1) * (maxE - minE + 1)) < 2^63) (hTI : I64 T)
    (evs : List StoreEvent)
    (hin : ∀ ev ∈ evs, (minP ≤ ev.p ∧ ev.p ≤ maxP) ∧ (minE ≤ ev.e ∧ ev.e ≤ maxE) ∧
      (minT ≤ ev.t ∧ ev.t ≤ T))
    (hsorted : evs.Pairwise (fun a b => a.t ≤ b.t))
    (ev : StoreEvent) (hmem : ev ∈ evs) (hrecent : T - (maxT - minT + 1) < ev.t) :
    ∃ i, cfg.storeIndex ev.p ev.e ev.t = .ok i ∧ 0 ≤ i ∧
      i < numRecords minP maxP minE maxE minT maxT ∧ storeAll cfg evs i = some ev := by
  have hconf := h
  have hT := h.2.2.1
  obtain ⟨w, ho, hr, e1, e2, e3, e4, e5, e6, hn⟩ := cfg_facts h
  have wp := w.np
  have we := w.ne
  have wt := w.nt
  have w1 := w.p1
  have w2 := w.e1
  have w3 := w.t1
  have w4 := w.t0
  rw [e1, e2] at wp
  rw [e3, e4] at we
  rw [e5, e6] at wt
  have hNP : 1 ≤ cfg.numP := by omega
  have hNE : 1 ≤ cfg.numE := by omega
  have hNT : 1 ≤ cfg.numT := by omega
  have hN : 1 ≤ cfg.numP * cfg.numE := one_le_mul' hNP hNE
  have hovt : ∀ t, t ≤ T → (t - minT + 1) * ((maxP - minP + 1) * (maxE - minE + 1)) < 2^63 := by
    intro t ht
    have : (t - minT + 1) * ((maxP - minP + 1) * (maxE - minE + 1)) ≤
        (T - minT + 1) * ((maxP - minP + 1) * (maxE - minE + 1)) := by
      rw [← wp, ← we]
      exact mul_le_mul_of_nonneg_right (by omega) (by omega)
    omega
  obtain ⟨hp, he, ht⟩ := hin ev hmem
  have hI : ∀ t, minT ≤ t → t ≤ T → I64 t := fun t h1 h2 => ⟨by omega, by have := hTI.2; omega⟩
  have hidx := storeIndex_eq (p := ev.p) (e := ev.e) (t := ev.t) w ho (by omega) (by omega)
    (by omega) (hI _ ht.1 ht.2) (Or.inr hr) (by rw [hn]; exact hcap)
    (by rw [wp, we, e5]; exact hovt _ ht.2)
  refine ⟨_, hidx, ?_, ?_, ?_⟩
  · apply Int.emod_nonneg
    have := one_le_mul' hN hNT; omega
  · rw [← hn]; apply Int.emod_lt_of_pos
    have := one_le_mul' hN hNT; omega
  · generalize hi : lin cfg.numP cfg.numE (ev.p - cfg.minP) (ev.e - cfg.minE) (ev.t - cfg.minT) %
      (cfg.numP * cfg.numE * cfg.numT) = i at hidx
    clear hi
    -- induction from the end of the history
    induction evs using List.reverseRecOn with
    | nil => simp at hmem
    | append_singleton l x ih =>
      rw [storeAll_append]
      split
      · rename_i hx
        obtain ⟨xp, xe, xt⟩ := hin x (by simp)
        have hsh := (C21_shared_record hconf hcap hp he ht.1 (hI _ ht.1 ht.2) xp xe xt.1
          (hI _ xt.1 xt.2) (hovt _ ht.2) (hovt _ xt.2)).1 (by rw [hidx, hx])
        have hle : ev.t ≤ x.t := by
          rcases List.mem_append.1 hmem with hm | hm
          · exact (List.pairwise_append.1 hsorted).2.2 ev hm x (by simp)
          · simp at hm; subst hm; omega
        have hd := Int.emod_emod_of_dvd (ev.t - x.t) (Int.dvd_refl (maxT - minT + 1))
        have hdvd : (maxT - minT + 1) ∣ (x.t - ev.t) := by
          have := Int.dvd_of_emod_eq_zero hsh.2.2
          obtain ⟨k, hk⟩ := this
          exact ⟨-k, by rw [Int.mul_neg]; omega⟩
        have hz : x.t - ev.t = 0 := by
          apply Int.eq_zero_of_dvd_of_nonneg_of_lt (by omega) (by omega) hdvd
        obtain ⟨a, b, c⟩ := ev
        obtain ⟨a', b', c'⟩ := x
        simp at hsh hz ⊢
        omega
      · rename_i hx
        rcases List.mem_append.1 hmem with hm | hm
        · exact ih (fun y hy => hin y (by simp [hy])) (List.pairwise_append.1 hsorted).1 hm
        · simp at hm; subst hm; exact absurd hidx hx

/-- a run of 30 turns of the example configuration (turns 5..34), one particle at one element -/
example : ∃ i, (exampleCfg true).storeIndex 3 2 31 = .ok i ∧ 0 ≤ i ∧ i < 24 ∧
    storeAll (exampleCfg true) ((List.range 30).map fun k : Nat => ⟨3, 2, 5 + (k : Int)⟩) i
      = some ⟨3, 2, 31⟩ :=
  C21_recent_turns_kept (T := 34) (exampleCfg_configured true) (by decide) (by decide) (by decide)
    _ (by decide) (by decide) ⟨3, 2, 31⟩ (by decide) (by decide)

/-! ## Finding: the number of stored turns is chosen by comparing a turn with an element id -/

/-- The last stored turn that a caller expects when element-by-element output is requested until
turn `untilTurn` for particles that start at turn `minTurn`. -/
def expectedMaxTurn (untilTurn minTurn maxTurn : Int) : Int :=
  if minTurn < untilTurn then untilTurn - 1 else maxTurn

/-- The code agrees with the expectation if the comparison with the smallest element id and with
the smallest turn come out the same. -/
theorem C21_init_max_turn_partial {untilTurn minElem minTurn maxTurn : Int}
    (h : minElem < untilTurn ↔ minTurn < untilTurn) :
    selectMaxTurn untilTurn minElem maxTurn = expectedMaxTurn untilTurn minTurn maxTurn := by
  unfold selectMaxTurn expectedMaxTurn
  by_cases h1 : minElem < untilTurn
  · rw [if_pos (by omega), if_pos h1, if_pos (h.1 h1)]
  · rw [if_neg (fun h2 => h1 (h.2 h2))]
    split <;> simp

example : selectMaxTurn 10 0 0 = expectedMaxTurn 10 0 0 :=
  C21_init_max_turn_partial (by decide)

/-- In general the code does not: with the first element at id 20, particles at turn 0 and output
requested until turn 10, only turn 0 is configured. -/
theorem C21_init_max_turn_violated :
    ∃ untilTurn minElem minTurn maxTurn : Int, 0 ≤ minElem ∧ 0 ≤ minTurn ∧ minTurn ≤ maxTurn ∧
      selectMaxTurn untilTurn minElem maxTurn ≠ expectedMaxTurn untilTurn minTurn maxTurn :=
  ⟨10, 20, 0, 0, by decide, by decide, by decide, by decide⟩

end SixTrack
