import Verif.Output
import Mathlib.Tactic.Ring

/-!
# Facts about the preparation of the output
-/

namespace SixTrack.Output
open Monitor EBE

theorem toIndex_pred {n : Nat} (h0 : 0 < n) (h : n ≤ 2^63) : toIndex (n - 1) = (n : Int) - 1 := by
  unfold toIndex
  rw [if_pos (by omega)]
  omega

/-- the number of records, if nothing overflows -/
theorem storedNum_ok {minP maxP minE maxE minT maxT : Int}
    (hp : 0 ≤ minP ∧ minP ≤ maxP) (he : 0 ≤ minE ∧ minE ≤ maxE) (ht : 0 ≤ minT ∧ minT ≤ maxT)
    (hP : maxP < 2^63 - 1) (hE : maxE < 2^63 - 1) (hT : maxT < 2^63 - 1)
    (hn : (maxP - minP + 1) * (maxE - minE + 1) * (maxT - minT + 1) < 2^64) :
    storedNum minP maxP minE maxE minT maxT =
      .ok ((maxP - minP + 1) * (maxE - minE + 1) * (maxT - minT + 1)).toNat := by
  unfold storedNum
  rw [if_pos ⟨hp.1, hp.2, he.1, he.2, ht.1, ht.2⟩]
  rw [i64_ok (by unfold I64; omega), i64_ok (by unfold I64; omega), i64_ok (by unfold I64; omega)]
  simp only [Res.ok_bind, Res.pure_eq, Res.ok.injEq]
  have e : (1 + maxP - minP) * (1 + maxE - minE) * (1 + maxT - minT) =
      (maxP - minP + 1) * (maxE - minE + 1) * (maxT - minT + 1) := by ring
  rw [e, Int.emod_eq_of_lt ?_ hn]
  exact Int.mul_nonneg (Int.mul_nonneg (by omega) (by omega)) (by omega)

/-- the number of particles of the output objects that the monitors get -/
theorem prepareLoop_particles (minP maxP t : Int) (fresh : Nat → Nat) (es : List Elem) (k : Nat) :
    (prepareLoop minP maxP t fresh es k).2.map (·.particles) =
      es.filterMap fun e => match e with
        | .monitor m => if t ≤ m.start ∧ 0 < m.numStores
            then some (some (mulU64 (1 + maxP - minP) m.numStores)) else none
        | .other => none := by
  induction es generalizing k with
  | nil => simp [prepareLoop]
  | cons e es ih =>
    cases e with
    | other => simp [prepareLoop, ih]
    | monitor m =>
      by_cases ha : t ≤ m.start ∧ 0 < m.numStores
      · simp [prepareLoop, Mon.active, ha, ih]
      · simp [prepareLoop, Mon.active, ha, ih]

/-- nothing is prepared for the monitors iff no monitor starts at or after the first turn and stores
something -/
theorem prepareLoop_ne_nil (minP maxP t : Int) (fresh : Nat → Nat) (es : List Elem) (k : Nat) :
    (prepareLoop minP maxP t fresh es k).2 ≠ [] ↔
      ∃ m, Elem.monitor m ∈ es ∧ t ≤ m.start ∧ 0 < m.numStores := by
  have h := prepareLoop_particles minP maxP t fresh es k
  constructor
  · intro hne
    cases hl : (prepareLoop minP maxP t fresh es k).2 with
    | nil => exact absurd hl hne
    | cons o os =>
      rw [hl] at h
      have : o.particles ∈ List.map (·.particles) (o :: os) := by simp
      rw [h] at this
      obtain ⟨e, he, hf⟩ := List.mem_filterMap.1 this
      cases e with
      | other => simp at hf
      | monitor m =>
        by_cases ha : t ≤ m.start ∧ 0 < m.numStores
        · exact ⟨m, he, ha⟩
        · simp [ha] at hf
  · rintro ⟨m, hm, ha⟩ hnil
    rw [hnil] at h
    have : some (mulU64 (1 + maxP - minP) m.numStores) ∈ ([] : List (Option Nat)) := by
      rw [show ([] : List (Option Nat)) = List.map (·.particles) ([] : List OutObj) from rfl, h]
      exact List.mem_filterMap.2 ⟨_, hm, by simp [ha]⟩
    simp at this

theorem anyStores_iff (es : List Elem) :
    anyStores es = true ↔ ∃ m, Elem.monitor m ∈ es ∧ 0 < m.numStores := by
  unfold anyStores
  rw [List.any_reverse, List.any_eq_true]
  constructor
  · rintro ⟨e, he, hd⟩
    cases e with
    | other => simp at hd
    | monitor m => exact ⟨m, he, by simpa using hd⟩
  · rintro ⟨m, hm, h⟩
    exact ⟨_, hm, by simpa using h⟩

/-! ## the range of the element ids -/

theorem countLoop_eq (ts : List Nat) (n : Nat) :
    countLoop ts n = n + (ts.filter countsAsElement).length := by
  induction ts generalizing n with
  | nil => simp [countLoop]
  | cons t ts ih =>
    unfold countLoop
    split
    · rename_i h
      rw [ih, List.filter_cons_of_pos h, List.length_cons]; omega
    · rename_i h
      rw [ih, List.filter_cons_of_neg h]

theorem skipLoop_eq (ts : List Nat) (k : Nat) :
    (skipLoop ts k = none ∧ ∀ t ∈ ts, countsAsElement t = false) ∨
    ∃ pre t rest, ts = pre ++ t :: rest ∧ (∀ x ∈ pre, countsAsElement x = false) ∧
      countsAsElement t = true ∧ skipLoop ts k = some (k + pre.length, rest) := by
  induction ts generalizing k with
  | nil => left; simp [skipLoop]
  | cons t ts ih =>
    by_cases h : countsAsElement t = true
    · right
      exact ⟨[], t, ts, rfl, by simp, h, by simp [skipLoop, h]⟩
    · rcases ih (k + 1) with ⟨h1, h2⟩ | ⟨pre, u, rest, h1, h2, h3, h4⟩
      · left
        refine ⟨by simp [skipLoop, h, h1], ?_⟩
        intro x hx
        rcases List.mem_cons.1 hx with rfl | hx
        · simpa using h
        · exact h2 x hx
      · right
        refine ⟨t :: pre, u, rest, by simp [h1], ?_, h3, ?_⟩
        · intro x hx
          rcases List.mem_cons.1 hx with rfl | hx
          · simpa using h
          · exact h2 x hx
        · simp only [skipLoop, if_neg h, h4, List.length_cons]
          congr 2; omega

/-- the range found for the elements -/
theorem findElementRange_eq {types pre rest : List Nat} {t : Nat} {lo hi start : Int}
    (h0 : 0 ≤ start) (ht : types = pre ++ t :: rest) (hpre : ∀ x ∈ pre, countsAsElement x = false)
    (hc : countsAsElement t = true) :
    findElementRange types lo hi start =
      some (min lo (start + pre.length),
        max hi (start + pre.length + (rest.filter countsAsElement).length),
        1 + (rest.filter countsAsElement).length) := by
  have hskip : skipLoop types 0 = some (pre.length, rest) := by
    rcases skipLoop_eq types 0 with ⟨-, h2⟩ | ⟨pre', t', rest', h1, h2, h3, h4⟩
    · exact absurd (h2 t (by simp [ht])) (by simp [hc])
    · have : pre' = pre ∧ t' :: rest' = t :: rest := by
        rw [ht] at h1
        clear h4 ht
        induction pre generalizing pre' with
        | nil =>
          cases pre' with
          | nil => simpa using h1.symm
          | cons a as =>
            simp at h1
            have := h2 a (by simp)
            rw [← h1.1, hc] at this; simp at this
        | cons b bs ih =>
          cases pre' with
          | nil =>
            simp at h1
            have := hpre b (by simp)
            rw [h1.1, h3] at this; simp at this
          | cons a as =>
            simp only [List.cons_append, List.cons.injEq] at h1
            obtain ⟨rfl, h1⟩ := h1
            obtain ⟨rfl, h⟩ := ih (fun x hx => hpre x (by simp [hx])) as h1
              (fun x hx => h2 x (by simp [hx]))
            exact ⟨rfl, h⟩
      obtain ⟨rfl, h⟩ := this
      simp only [List.cons.injEq] at h
      rw [h4, h.2]; simp
  unfold findElementRange
  rw [if_pos ⟨by simp [ht], h0⟩, hskip]
  simp only [countLoop_eq, Nat.zero_add]
  rw [if_pos (by refine ⟨by omega, by omega, by push_cast; omega⟩)]
  have e1 : (if start + (pre.length : Int) < lo then start + (pre.length : Int) else lo) =
      min lo (start + pre.length) := by split <;> omega
  have e2 : (if hi < start + (pre.length : Int) + ((rest.filter countsAsElement).length : Int)
      then start + (pre.length : Int) + ((rest.filter countsAsElement).length : Int) else hi) =
      max hi (start + pre.length + (rest.filter countsAsElement).length) := by split <;> omega
  rw [e1, e2]

theorem findElementRange_none {types : List Nat} {lo hi start : Int}
    (h : ∀ t ∈ types, countsAsElement t = false) : findElementRange types lo hi start = none := by
  unfold findElementRange
  split
  · rcases skipLoop_eq types 0 with ⟨h1, -⟩ | ⟨pre, t, rest, h1, -, h3, -⟩
    · rw [h1]
    · have := h t (by simp [h1])
      rw [h3] at this; simp at this
  · rfl

/-! ## preparing -/

theorem prepareMonitors_ok {es : List Elem} {outs : List OutObj} {minP maxP minT : Int}
    {fresh : Nat → Nat} {off : Nat} {maxTurn : Int} (h : 0 ≤ minT ∧ 0 ≤ minP ∧ minP ≤ maxP) :
    prepareMonitors es outs minP maxP minT fresh off maxTurn =
      ⟨SUCCESS, (prepareLoop minP maxP minT fresh es 0).1,
        outs ++ (prepareLoop minP maxP minT fresh es 0).2, off, outs.length, maxTurn⟩ := by
  have e : prepareDetailed es outs minP maxP minT fresh =
      (SUCCESS, (prepareLoop minP maxP minT fresh es 0).1,
        outs ++ (prepareLoop minP maxP minT fresh es 0).2, outs.length) := by
    unfold prepareDetailed
    rw [if_neg (by omega)]
  unfold prepareMonitors
  simp only [e, if_true]

theorem prepareMonitors_status {es : List Elem} {outs : List OutObj} {minP maxP minT : Int}
    {fresh : Nat → Nat} {off : Nat} {maxTurn : Int}
    (h : (prepareMonitors es outs minP maxP minT fresh off maxTurn).status = SUCCESS) :
    0 ≤ minT ∧ 0 ≤ minP ∧ minP ≤ maxP := by
  by_cases hv : minT < 0 ∨ minP < 0 ∨ maxP < minP
  · have e : prepareDetailed es outs minP maxP minT fresh = (FAILURE, es, outs, 0) := by
      unfold prepareDetailed
      rw [if_pos hv]
    unfold prepareMonitors at h
    simp [e, SUCCESS, FAILURE] at h
  · omega

/-- The shape of a successfully prepared output buffer. -/
theorem prepare_success {es : List Elem} {outs : List OutObj} {minP maxP minE maxE minT : Int}
    {untilTurn : Nat} {fresh : Nat → Nat} {r : Prepared}
    (h : prepare es outs minP maxP minE maxE minT untilTurn fresh = .ok r)
    (hs : r.status = SUCCESS) :
    (0 ≤ minT ∧ 0 ≤ minP ∧ minP ≤ maxP) ∧
    r.elems = (prepareLoop minP maxP minT (fun k => fresh (k + 1)) es 0).1 ∧
    ((minT < untilTurn ∧ 0 ≤ minE ∧ minE ≤ maxE ∧ minT ≤ toIndex (untilTurn - 1) ∧
      r.maxTurn = toIndex (untilTurn - 1) ∧
      ∃ n, storedNum minP maxP minE maxE minT (toIndex (untilTurn - 1)) = .ok n ∧
        r.outs = outs ++ [{ addr := fresh 0, particles := some n }] ++
          (prepareLoop minP maxP minT (fun k => fresh (k + 1)) es 0).2 ∧
        r.ebeOffset = outs.length ∧ r.monOffset = outs.length + 1) ∨
     (¬ minT < untilTurn ∧
        r.outs = outs ++ (prepareLoop minP maxP minT (fun k => fresh (k + 1)) es 0).2 ∧
        r.ebeOffset = 0 ∧ r.monOffset = outs.length ∧ r.maxTurn = 0)) := by
  unfold prepare at h
  split at h
  · rename_i hu
    obtain ⟨⟨s, outs1, off⟩, h1, h⟩ := Res.bind_eq_ok.1 h
    simp only [Res.pure_eq, Res.ok.injEq] at h
    unfold prepareEbe at h1
    split at h1
    · rename_i hv
      obtain ⟨n, hn, h1⟩ := Res.bind_eq_ok.1 h1
      simp only [Res.pure_eq, Res.ok.injEq, Prod.mk.injEq] at h1
      obtain ⟨rfl, rfl, rfl⟩ := h1
      rw [if_pos rfl, prepareMonitors_ok ⟨hu.1, hv.1, hv.2.1⟩] at h
      subst h
      exact ⟨⟨hu.1, hv.1, hv.2.1⟩, rfl, Or.inl ⟨hu.2, hv.2.2.1, hv.2.2.2.1, hv.2.2.2.2.2, rfl,
        n, hn, rfl, rfl, by simp⟩⟩
    · simp only [Res.pure_eq, Res.ok.injEq, Prod.mk.injEq] at h1
      obtain ⟨rfl, rfl, rfl⟩ := h1
      rw [if_neg (show FAILURE ≠ SUCCESS by decide)] at h
      subst h
      exact absurd (show FAILURE = SUCCESS from hs) (by decide)
  · rename_i hu
    simp only [Res.pure_eq, Res.ok.injEq] at h
    subst h
    have hv := prepareMonitors_status hs
    rw [prepareMonitors_ok hv]
    exact ⟨hv, rfl, Or.inr ⟨by omega, rfl, rfl, rfl, rfl⟩⟩

/-- Preparing succeeds for sensible ranges. -/
theorem prepare_ok {es : List Elem} {outs : List OutObj} {minP maxP minE maxE minT : Int}
    {untilTurn : Nat} {fresh : Nat → Nat}
    (hp : 0 ≤ minP ∧ minP ≤ maxP) (he : 0 ≤ minE ∧ minE ≤ maxE) (ht : 0 ≤ minT)
    (hP : maxP < 2^63 - 1) (hE : maxE < 2^63 - 1) (hT : untilTurn < 2^63)
    (hn : (maxP - minP + 1) * (maxE - minE + 1) * (untilTurn - minT) < 2^64) :
    ∃ r, prepare es outs minP maxP minE maxE minT untilTurn fresh = .ok r ∧ r.status = SUCCESS := by
  unfold prepare
  split
  · rename_i hu
    have hi := toIndex_pred (n := untilTurn) (by omega) (by omega)
    have hs := storedNum_ok (minT := minT) (maxT := (untilTurn : Int) - 1) hp he
      ⟨ht, by omega⟩ hP hE (by omega) (by
        rw [show (untilTurn : Int) - 1 - minT + 1 = untilTurn - minT by omega]; exact hn)
    unfold prepareEbe
    rw [hi, if_pos ⟨hp.1, hp.2, he.1, he.2, ht, by omega⟩, hs]
    simp only [Res.ok_bind, Res.pure_eq, if_true]
    exact ⟨_, rfl, by rw [prepareMonitors_ok ⟨ht, hp.1, hp.2⟩]⟩
  · exact ⟨_, rfl, by rw [prepareMonitors_ok ⟨ht, hp.1, hp.2⟩]⟩

end SixTrack.Output
