import Verif.NodeInfoLemmas
import Verif.Props.NodeId

/-! # Property C92: a description of a compute node holds what it was made of -/

namespace SixTrack

open SixTrack.Node SixTrack.CInfo

/-- The blocks `gone` have been freed, the blocks of `own` are new, nothing else has changed. -/
structure Replaced (m m' : Mem) (gone own : List Nat) : Prop where
  live : ∀ q, Live m' q ↔ (Live m q ∧ q ∉ gone) ∨ q ∈ own
  kept : ∀ q, q < m.length → q ∉ gone → m'[q]? = m[q]?
  fresh : ∀ q ∈ own, m.length ≤ q

theorem Replaced.of_append {m : Mem} {gone own : List Nat} {r : Mem}
    (hl : ∀ q, (∃ b, r[q]? = some (some b)) ↔ m.length + q ∈ own) (ho : ∀ q ∈ own, m.length ≤ q) :
    Replaced m (kill m gone ++ r) gone own := by
  refine ⟨?_, ?_, ho⟩
  · intro q
    unfold Live
    by_cases hq : q < m.length
    · rw [List.getElem?_append_left (by rw [kill_length]; exact hq), kill_get]
      constructor
      · rintro ⟨b, hb⟩
        by_cases hg : q ∈ gone
        · rw [if_pos ⟨hg, hq⟩] at hb
          simp at hb
        · rw [if_neg (fun h => hg h.1)] at hb
          exact .inl ⟨⟨b, hb⟩, hg⟩
      · rintro (⟨⟨b, hb⟩, hg⟩ | h)
        · exact ⟨b, by rw [if_neg (fun h => hg h.1), hb]⟩
        · exact absurd (ho q h) (by omega)
    · rw [List.getElem?_append_right (by rw [kill_length]; omega), kill_length]
      have := hl (q - m.length)
      rw [show m.length + (q - m.length) = q by omega] at this
      rw [this]
      constructor
      · exact .inr
      · rintro (⟨⟨b, hb⟩, -⟩ | h)
        · rw [List.getElem?_eq_none (by omega)] at hb
          simp at hb
        · exact h
  · intro q hq hg
    rw [List.getElem?_append_left (by rw [kill_length]; exact hq), kill_get, if_neg (fun h => hg h.1)]

theorem freshInfo_ptrs (k lp ld : Nat) (q : Nat) :
    q ∈ (freshInfo k lp ld).ptrs ↔ q = k ∨ q = k + 1 ∨ (lp ≠ 0 ∧ q = k + 2) ∨
      (ld ≠ 0 ∧ q = if lp = 0 then k + 2 else k + 3) := by
  unfold Info.ptrs freshInfo
  by_cases hp : lp = 0 <;> by_cases hd : ld = 0 <;> simp [hp, hd, or_comm, or_left_comm]

theorem freshInfo_nodup (k lp ld : Nat) : (freshInfo k lp ld).ptrs.Nodup := by
  unfold Info.ptrs freshInfo
  by_cases hp : lp = 0 <;> by_cases hd : ld = 0 <;> simp [hp, hd]

theorem fresh_live (k la lp ln ld q : Nat) :
    (∃ b, (CInfo.fresh la lp ln ld)[q]? = some (some b)) ↔ k + q ∈ (freshInfo k lp ld).ptrs := by
  rw [freshInfo_ptrs]
  unfold CInfo.fresh zeros
  match q with
  | 0 => simp
  | 1 => simp
  | 2 => by_cases hp : lp = 0 <;> by_cases hd : ld = 0 <;> simp [hp, hd]
  | 3 => by_cases hp : lp = 0 <;> by_cases hd : ld = 0 <;> simp [hp, hd]
  | q + 4 =>
    have h : ((if lp = 0 then ([] : Mem) else [zeros lp]) ++ (if ld = 0 then [] else [zeros ld])).length ≤ 2 := by
      by_cases hp : lp = 0 <;> by_cases hd : ld = 0 <;> simp [hp, hd]
    unfold zeros at h
    simp only [List.getElem?_cons_succ]
    rw [List.getElem?_eq_none (by omega)]
    constructor
    · simp
    · rintro (h | h | h | h)
      · omega
      · omega
      · omega
      · split_ifs at h <;> omega

/-- **C92**: reserving memory for an info whose texts have blocks of their own, if there is
memory, frees the texts it had, gives it texts of its own in cleared blocks of the lengths
asked for, with one more byte, and resets the id; everything else stays. -/
theorem C92_reserve (av : Nat → Bool) (m : Mem) (i : Info) (h : Owned m i) (la lp ln ld : Nat)
    (ha : 0 < la) (hn : 0 < ln) (h0 : av 0 = true) (h1 : av 1 = true) (h2 : lp = 0 ∨ av 2 = true)
    (h3 : ld = 0 ∨ av 3 = true) :
    ∃ m' i', reserve av m i la lp ln ld = .ok (m', i', true) ∧ Owned m' i' ∧
      Replaced m m' i.ptrs i'.ptrs ∧ i'.id = ⟨-1, -1⟩ ∧
      (∃ q, i'.arch = some q ∧ m'[q]? = some (some (List.replicate (la + 1) (some 0)))) ∧
      (∃ q, i'.name = some q ∧ m'[q]? = some (some (List.replicate (ln + 1) (some 0)))) ∧
      (if lp = 0 then i'.platform = none else
        ∃ q, i'.platform = some q ∧ m'[q]? = some (some (List.replicate (lp + 1) (some 0)))) ∧
      (if ld = 0 then i'.description = none else
        ∃ q, i'.description = some q ∧ m'[q]? = some (some (List.replicate (ld + 1) (some 0)))) := by
  refine ⟨_, _, reserve_ok h ha hn h0 h1 h2 h3, ?_⟩
  have hR : Replaced m (kill m i.ptrs ++ CInfo.fresh la lp ln ld) i.ptrs (freshInfo m.length lp ld).ptrs := by
    refine Replaced.of_append (fun q => fresh_live _ _ _ _ _ _) ?_
    intro q hq
    rw [freshInfo_ptrs] at hq
    split_ifs at hq <;> omega
  refine ⟨⟨freshInfo_nodup _ _ _, fun q hq => (hR.live q).mpr (.inr hq)⟩, hR, rfl,
    ⟨m.length, rfl, ?_⟩, ⟨m.length + 1, rfl, ?_⟩, ?_, ?_⟩
  · rw [List.getElem?_append_right (by simp [kill_length]), kill_length]
    simp [CInfo.fresh, zeros]
  · rw [List.getElem?_append_right (by rw [kill_length]; omega), kill_length]
    simp [CInfo.fresh, zeros]
  · by_cases hp : lp = 0
    · rw [if_pos hp]
      simp [freshInfo, hp]
    · rw [if_neg hp]
      refine ⟨m.length + 2, by simp [freshInfo, hp], ?_⟩
      rw [List.getElem?_append_right (by rw [kill_length]; omega), kill_length]
      simp [CInfo.fresh, zeros, hp]
  · by_cases hd : ld = 0
    · rw [if_pos hd]
      simp [freshInfo, hd]
    · rw [if_neg hd]
      refine ⟨if lp = 0 then m.length + 2 else m.length + 3, by simp [freshInfo, hd], ?_⟩
      rw [List.getElem?_append_right (by rw [kill_length]; split <;> omega), kill_length]
      by_cases hp : lp = 0 <;> simp [CInfo.fresh, zeros, hp, hd]

/-- **C92**: without memory, or for an empty name or architecture, nothing is reserved: the
info is what it was, and no block is lost. -/
theorem C92_reserve_fails (av : Nat → Bool) (m : Mem) (i : Info) (la lp ln ld : Nat)
    (hf : ¬(0 < la ∧ 0 < ln ∧ av 0 = true ∧ av 1 = true ∧ (lp = 0 ∨ av 2 = true) ∧ (ld = 0 ∨ av 3 = true))) :
    ∃ m', reserve av m i la lp ln ld = .ok (m', i, false) ∧ Replaced m m' [] [] := by
  obtain ⟨r, hr, e⟩ := reserve_fail (i := i) (m := m) hf
  refine ⟨_, e, ?_⟩
  refine Replaced.of_append (gone := []) ?_ (by simp)
  intro q
  simp only [List.not_mem_nil, iff_false, not_exists]
  intro b hb
  exact absurd (hr _ (List.mem_of_getElem? hb)) (by simp)

/-- **C92**: freeing an info frees its texts, and nothing else; freeing it again changes nothing. -/
theorem C92_free (m : Mem) (i : Info) (h : Owned m i) :
    ∃ m', freeInfo m i = .ok (m', Info.preset) ∧ Replaced m m' i.ptrs [] ∧
      freeInfo m' Info.preset = .ok (m', Info.preset) := by
  have e := free_info h []
  rw [List.append_nil] at e
  refine ⟨_, e, ?_, rfl⟩
  exact Replaced.of_append (by simp) (by simp)

/-- A text of the given length or none. -/
theorem store_zeros (m r : Mem) (n k : Nat) (s : Str) (hk : k = m.length) (hs : s.length ≤ n + 1) :
    store (m ++ zeros n :: r) (some k) s =
      .ok (m ++ some (s.map some ++ List.replicate (n + 1 - s.length) (some 0)) :: r) := by
  unfold zeros
  rw [store_mid m r _ s k hk (by simpa using hs)]
  simp

theorem store_zeros_ub (m r : Mem) (n k : Nat) (s : Str) (hk : k = m.length) (hs : n + 1 < s.length) :
    store (m ++ zeros n :: r) (some k) s = .ub := by
  unfold zeros
  exact store_mid_ub m r _ s k hk (by simpa using hs)

/-- The block of a text in a block for a text of length `n`. -/
def textBlock (n : Nat) (s : Str) : Option Block :=
  some (s.map some ++ List.replicate (n + 1 - s.length) (some 0))

theorem make_prefix {av : Nat → Bool} {m : Mem} {i : Info} (h : Owned m i) (id : CId) (arch platform name : Str)
    (description : Option Str) (hav : ∀ k, av k = true) (ha : arch ≠ []) (hp : platform ≠ []) (hn : name ≠ [])
    (hd : description ≠ some []) :
    make av m i id (some arch) (some platform) (some name) description = (do
      let w ← store (kill m i.ptrs ++ ([textBlock arch.length arch] ++ zeros platform.length ::
        (zeros name.length :: if len description = 0 then [] else [zeros (len description)])))
        (some (m.length + 1)) name
      let w ← store w (some (m.length + 2)) platform
      let w ← copyText w (if len description = 0 then none else some (m.length + 3)) description
      Res.ok (w, { freshInfo m.length name.length (len description) with id := id }, true)) := by
  have la : 0 < arch.length := List.length_pos_of_ne_nil ha
  have lp : 0 < platform.length := List.length_pos_of_ne_nil hp
  have ln : 0 < name.length := List.length_pos_of_ne_nil hn
  have ld : 0 < len description ∨ description = none := by
    cases description with
    | none => exact .inr rfl
    | some d => exact .inl (List.length_pos_of_ne_nil fun e => hd (congrArg some e))
  unfold make
  simp only [show ∀ s : Str, len (some s) = s.length from fun _ => rfl, Option.getD_some]
  rw [if_pos ⟨la, ln, .inl lp, ld⟩,
    reserve_ok h la lp (hav 0) (hav 1) (.inr (hav 2)) (.inr (hav 3)), Res.ok_bind]
  simp only [if_true, strncpy_self]
  have hn0 : name.length ≠ 0 := by omega
  have e1 : store (kill m i.ptrs ++ CInfo.fresh arch.length name.length platform.length (len description))
      (some m.length) arch = .ok (kill m i.ptrs ++ ([textBlock arch.length arch] ++ zeros platform.length ::
        (zeros name.length :: if len description = 0 then [] else [zeros (len description)]))) := by
    unfold CInfo.fresh
    rw [store_zeros _ _ _ _ _ (by rw [kill_length]) (by omega)]
    simp [textBlock, hn0]
  have e0 : (freshInfo m.length name.length (len description)).arch = some m.length := rfl
  have e2 : (freshInfo m.length name.length (len description)).name = some (m.length + 1) := rfl
  have e3 : (freshInfo m.length name.length (len description)).platform = some (m.length + 2) := by
    simp [freshInfo, hn0]
  have e4 : (freshInfo m.length name.length (len description)).description =
      if len description = 0 then none else some (m.length + 3) := by
    simp [freshInfo, hn0]
  rw [e0, e2, e3, e4, e1, Res.ok_bind]
  simp only [copyText, if_pos lp, show ∀ s : Str, len (some s) = s.length from fun _ => rfl, Option.getD_some,
    strncpy_self]

theorem make_store {m : Mem} {i : Info} (arch platform name : Str) (description : Option Str)
    (h1 : name.length ≤ platform.length + 1) (h2 : platform.length ≤ name.length + 1) (id : CId) :
    (do
      let w ← store (kill m i.ptrs ++ ([textBlock arch.length arch] ++ zeros platform.length ::
        (zeros name.length :: if len description = 0 then [] else [zeros (len description)])))
        (some (m.length + 1)) name
      let w ← store w (some (m.length + 2)) platform
      let w ← copyText w (if len description = 0 then none else some (m.length + 3)) description
      Res.ok (w, { freshInfo m.length name.length (len description) with id := id }, true)) =
    .ok (kill m i.ptrs ++ (textBlock arch.length arch :: textBlock platform.length name ::
      textBlock name.length platform :: if len description = 0 then [] else
        [textBlock (len description) (description.getD [])]),
      { freshInfo m.length name.length (len description) with id := id }, true) := by
  rw [← List.append_assoc, store_zeros _ _ _ _ _ (by simp [kill_length]) h1, Res.ok_bind,
    show ∀ (x : Mem) (y : Option Block) (z : Mem), x ++ y :: z = (x ++ [y]) ++ z by simp,
    store_zeros _ _ _ _ _ (by simp [kill_length]) h2, Res.ok_bind]
  by_cases hd : len description = 0
  · rw [if_pos hd, if_pos hd, if_pos hd]
    unfold copyText
    rw [if_neg (by omega)]
    simp [textBlock]
  · rw [if_neg hd, if_neg hd, if_neg hd]
    unfold copyText
    rw [if_pos (by omega)]
    have : (len description) = (description.getD []).length := rfl
    rw [this, strncpy_self,
      show ∀ (x : Mem) (y : Option Block) (z : Mem), x ++ y :: z = (x ++ [y]) ++ z by simp,
      store_zeros _ _ _ _ _ (by simp [kill_length]) (by omega)]
    simp [textBlock]

theorem read_block {m r : Mem} {n k : Nat} {s : Str} (hk : k = m.length) (hs : 0 ∉ s) (hn : s.length ≤ n) :
    readStr (m ++ textBlock n s :: r) (some k) = .ok s := by
  subst hk
  unfold readStr textBlock
  simp only [List.getElem?_append_right (Nat.le_refl _), Nat.sub_self, List.getElem?_cons_zero]
  rw [show n + 1 - s.length = (n - s.length) + 1 by omega, List.replicate_succ]
  exact textOf_text s hs _

theorem read_block_ub {m r : Mem} {n k : Nat} {s : Str} (hk : k = m.length) (hs : 0 ∉ s) (hn : s.length = n + 1) :
    readStr (m ++ textBlock n s :: r) (some k) = .ub := by
  subst hk
  unfold readStr textBlock
  simp only [List.getElem?_append_right (Nat.le_refl _), Nat.sub_self, List.getElem?_cons_zero]
  rw [show n + 1 - s.length = 0 by omega, List.replicate_zero, List.append_nil]
  exact textOf_open s hs

/-- An info with its texts and its id. -/
structure InfoHolds (m : Mem) (i : Info) (id : CId) (arch platform name : Str) (description : Option Str) : Prop where
  id : i.id = id
  arch : readStr m i.arch = .ok arch
  platform : readStr m i.platform = .ok platform
  name : readStr m i.name = .ok name
  description : match description with
    | some d => readStr m i.description = .ok d
    | none => i.description = none

theorem make_replaced (m : Mem) (i : Info) (a n p : Block) (d : Mem) (ln ld : Nat) (hln : ln ≠ 0) (id : CId)
    (hd : if ld = 0 then d = [] else ∃ b, d = [some b]) :
    Replaced m (kill m i.ptrs ++ (some a :: some n :: some p :: d)) i.ptrs
      ({ freshInfo m.length ln ld with id := id } : Info).ptrs := by
  have e : ({ freshInfo m.length ln ld with id := id } : Info).ptrs = (freshInfo m.length ln ld).ptrs := rfl
  rw [e]
  refine Replaced.of_append ?_ ?_
  · intro q
    rw [freshInfo_ptrs]
    simp only [if_neg hln]
    match q with
    | 0 => simp
    | 1 => simp
    | 2 => simp [hln]
    | 3 =>
      by_cases h0 : ld = 0
      · rw [if_pos h0] at hd; simp [hd, h0]
      · rw [if_neg h0] at hd
        obtain ⟨b, rfl⟩ := hd
        simp [h0]
    | q + 4 =>
      have hl : d.length ≤ 1 := by
        split_ifs at hd
        · simp [hd]
        · obtain ⟨b, rfl⟩ := hd; simp
      simp only [List.getElem?_cons_succ]
      rw [List.getElem?_eq_none (by omega)]
      constructor
      · simp
      · omega
  · intro q hq
    rw [freshInfo_ptrs] at hq
    split_ifs at hq <;> omega

/-- **C92, partial**: an info made of texts, where name and platform have the same length, holds these texts
and the id in memory of its own; the texts it had are freed, nothing else is changed, and it is valid if the id is. -/
theorem C92_make_partial (av : Nat → Bool) (m : Mem) (i : Info) (h : Owned m i) (id : CId)
    (arch platform name : Str) (description : Option Str) (hav : ∀ k, av k = true)
    (ha : arch ≠ []) (hp : platform ≠ []) (hn : name ≠ []) (hd : description ≠ some [])
    (za : 0 ∉ arch) (zp : 0 ∉ platform) (zn : 0 ∉ name) (zd : ∀ d, description = some d → 0 ∉ d)
    (hl : name.length = platform.length) :
    ∃ m' i', make av m i id (some arch) (some platform) (some name) description = .ok (m', i', true) ∧
      Owned m' i' ∧ Replaced m m' i.ptrs i'.ptrs ∧ InfoHolds m' i' id arch platform name description ∧
      Info.valid m' i' = .ok id.valid := by
  have ln0 : name.length ≠ 0 := by simpa using hn
  refine ⟨_, _, (make_prefix h id arch platform name description hav ha hp hn hd).trans
    (make_store arch platform name description (by omega) (by omega) id), ?_⟩
  have hR := make_replaced m i (arch.map some ++ List.replicate (arch.length + 1 - arch.length) (some 0))
    (name.map some ++ List.replicate (platform.length + 1 - name.length) (some 0))
    (platform.map some ++ List.replicate (name.length + 1 - platform.length) (some 0))
    (if len description = 0 then [] else [textBlock (len description) (description.getD [])])
    name.length (len description) ln0 id (by split_ifs <;> simp [textBlock])
  have hH : InfoHolds (kill m i.ptrs ++ (textBlock arch.length arch :: textBlock platform.length name ::
      textBlock name.length platform :: if len description = 0 then [] else
        [textBlock (len description) (description.getD [])]))
      { freshInfo m.length name.length (len description) with id := id } id arch platform name description := by
    refine ⟨rfl, ?_, ?_, ?_, ?_⟩
    · exact read_block (by rw [kill_length]) za (by omega)
    · have e : (freshInfo m.length name.length (len description)).platform = some (m.length + 2) := by
        simp [freshInfo, ln0]
      simp only [e]
      rw [show ∀ (x : Mem) (a b : Option Block) (z : Mem), x ++ a :: b :: z = (x ++ [a, b]) ++ z by simp]
      exact read_block (by simp [kill_length]) zp (by omega)
    · have e : (freshInfo m.length name.length (len description)).name = some (m.length + 1) := rfl
      simp only [e]
      rw [show ∀ (x : Mem) (a : Option Block) (z : Mem), x ++ a :: z = (x ++ [a]) ++ z by simp]
      exact read_block (by simp [kill_length]) zn (by omega)
    · cases description with
      | none => simp [freshInfo, len]
      | some d =>
        have d0 : len (some d) ≠ 0 := by
          intro e
          exact hd (congrArg some (List.eq_nil_of_length_eq_zero e))
        have e : (freshInfo m.length name.length (len (some d))).description = some (m.length + 3) := by
          simp [freshInfo, ln0, d0]
        simp only [e, if_neg d0, Option.getD_some]
        rw [show ∀ (x : Mem) (a b c : Option Block) (z : Mem), x ++ a :: b :: c :: z = (x ++ [a, b, c]) ++ z by simp]
        exact read_block (by simp [kill_length]) (zd d rfl) (Nat.le_refl _)
  refine ⟨⟨freshInfo_nodup m.length name.length (len description), fun q hq => (hR.live q).mpr (.inr hq)⟩, hR, hH, ?_⟩
  obtain ⟨-, ra, rp, rn, rd⟩ := hH
  have nz : ∀ (w : Mem) (p : Ptr) (s : Str), readStr w p = .ok s → s ≠ [] → hasText w p = .ok true := by
    intro w p s hr hs
    unfold hasText
    rw [if_neg (by rintro rfl; simp [readStr] at hr), hr]
    simp [List.length_pos_of_ne_nil hs]
  have nz' : ∀ (w : Mem) (p : Ptr) (s : Str), readStr w p = .ok s → s ≠ [] → noneOrText w p = .ok true := by
    intro w p s hr hs
    unfold noneOrText
    rw [if_neg (by rintro rfl; simp [readStr] at hr), nz w p s hr hs]
  unfold Info.valid
  rw [nz _ _ _ ra ha, nz _ _ _ rn hn, nz' _ _ _ rp hp]
  have hdv : noneOrText (kill m i.ptrs ++ (textBlock arch.length arch :: textBlock platform.length name ::
      textBlock name.length platform :: if len description = 0 then [] else
        [textBlock (len description) (description.getD [])]))
      ({ freshInfo m.length name.length (len description) with id := id } : Info).description = .ok true := by
    cases description with
    | none => simp only at rd; rw [rd]; simp [noneOrText]
    | some d => exact nz' _ _ _ rd (fun e => hd (congrArg some e))
  rw [hdv]
  cases id.valid <;> simp

/-- **C92**: the texts are written behind the ends of their blocks if the lengths of the name and of the platform differ by
more than one. -/
theorem C92_make_overflow (av : Nat → Bool) (m : Mem) (i : Info) (h : Owned m i) (id : CId)
    (arch platform name : Str) (description : Option Str) (hav : ∀ k, av k = true)
    (ha : arch ≠ []) (hp : platform ≠ []) (hn : name ≠ []) (hd : description ≠ some [])
    (hl : platform.length + 1 < name.length ∨ name.length + 1 < platform.length) :
    make av m i id (some arch) (some platform) (some name) description = .ub := by
  rw [make_prefix h id arch platform name description hav ha hp hn hd, ← List.append_assoc]
  by_cases h1 : platform.length + 1 < name.length
  · rw [store_zeros_ub _ _ _ _ _ (by simp [kill_length]) h1, Res.ub_bind]
  · rw [store_zeros _ _ _ _ _ (by simp [kill_length]) (by omega), Res.ok_bind,
      show ∀ (x : Mem) (y : Option Block) (z : Mem), x ++ y :: z = (x ++ [y]) ++ z by simp,
      store_zeros_ub _ _ _ _ _ (by simp [kill_length]) (by omega), Res.ub_bind]

/-- **C92 is false of the code**: an info for the architecture "cpu", the platform "X" and the name "GPU" is written behind
the end of the block for its name. -/
theorem C92_make_violated :
    make (fun _ => true) [] Info.preset ⟨0, 0⟩ (some [99, 112, 117]) (some [88]) (some [71, 80, 85]) none = .ub :=
  C92_make_overflow _ [] Info.preset ⟨List.nodup_nil, fun q hq => absurd hq (by simp [Info.ptrs, Info.preset])⟩ _ _ _ _ _
    (fun _ => rfl) (by simp) (by simp) (by simp) (by simp) (.inl (by simp))

/-- **C92 is false of the code**: if the name has one character more than the platform, the info is made, but its name does
not end. -/
theorem C92_make_open_violated :
    ∃ m i, make (fun _ => true) [] Info.preset ⟨0, 0⟩ (some [99, 112, 117]) (some [88]) (some [71, 80]) none =
      .ok (m, i, true) ∧ readStr m i.name = .ub ∧ Info.valid m i = .ub := by
  refine ⟨_, _, rfl, ?_, ?_⟩ <;> decide +kernel

/-- **C92 is false of the code**: the platform may be left out, but then no info is made. -/
theorem C92_no_platform_violated (av : Nat → Bool) (m : Mem) (i : Info) (id : CId) (arch name description : Option Str) :
    ∃ m', make av m i id arch none name description = .ok (m', i, false) ∧ Replaced m m' [] [] := by
  unfold make
  split_ifs with h
  · obtain ⟨m', e, hr⟩ := C92_reserve_fails av m i (len arch) (len name) (len none) (len description) (by simp [len])
    rw [e]
    exact ⟨m', rfl, hr⟩
  · refine ⟨m, rfl, ?_, ?_, ?_⟩ <;> simp

example : ∃ m i, make (fun _ => true) [] Info.preset ⟨1, 2⟩ (some [99, 112, 117]) (some [88, 89]) (some [71, 80])
    (some [65]) = .ok (m, i, true) ∧ readStr m i.name = .ok [71, 80] ∧ readStr m i.platform = .ok [88, 89] ∧
    Info.valid m i = .ok true := by
  refine ⟨_, _, rfl, ?_, ?_, ?_⟩ <;> decide +kernel

end SixTrack
