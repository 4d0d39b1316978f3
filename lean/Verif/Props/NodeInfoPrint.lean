import Verif.Props.NodeInfo

/-! # Property C92: printed descriptions of compute nodes -/

namespace SixTrack

open SixTrack.Node SixTrack.CInfo

/-- The codes of a text. -/
def codes (s : String) : Str := s.toList.map Char.toNat

/-- A line of the printed form: a label of 15 characters and a value filled up to ten characters. -/
def infoLine (label : String) (value : Str) : Str :=
  codes label ++ List.replicate (15 - label.length) 32 ++ codes ": " ++ value ++
    List.replicate (10 - value.length) 32

/-- A text that may be missing. -/
def infoText (label : String) : Option Str → Str
  | some s => infoLine label s
  | none => codes label ++ List.replicate (15 - label.length) 32 ++ codes ": n/a"

/-- The text of a pointer: none for the null pointer. -/
def TextAt (m : Mem) (p : Ptr) (s : Option Str) : Prop :=
  match s with
  | some s => p ≠ none ∧ readStr m p = .ok s
  | none => p = none

/-- A text as it is printed. -/
def shown : Option Str → Str
  | some s => pad10 s
  | none => NOT_AVAILABLE

theorem text_or_none {m : Mem} {p : Ptr} {s : Option Str} (h : TextAt m p s) :
    textOrNone m p = .ok (shown s) := by
  unfold textOrNone
  cases s with
  | none => simp only [TextAt] at h; simp [h, shown]
  | some s => simp only [TextAt] at h; simp [h.1, h.2, shown]

/-- **C92**: the printed form has a line for the id, with a mark for the default node, for the architecture, for the
platform and for the name. -/
theorem C92_print (m : Mem) (i : Info) (dflt : Option CId) (arch platform name : Option Str)
    (ha : TextAt m i.arch arch) (hp : TextAt m i.platform platform) (hn : TextAt m i.name name)
    (hv : i.id.valid = true) :
    print m i dflt = .ok (infoLine "Device ID Str" (idText i.id) ++
      (if dflt = some i.id then codes " [DEFAULT]" else []) ++ codes "\r\n" ++
      infoText "Architecture" arch ++ codes "\r\n" ++ infoText "Platform" platform ++ codes "\r\n" ++
      infoText "Name" name ++ codes "\r\n") := by
  unfold print
  rw [text_or_none ha, text_or_none hp, text_or_none hn]
  simp only [Res.ok_bind, Res.ok_inj]
  have hd : mark i.id dflt = if dflt = some i.id then codes " [DEFAULT]" else [] := by
    cases dflt with
    | none => simp [mark]
    | some k =>
      have hk : i.id.compare k = 0 ↔ some k = some i.id := by
        rw [Option.some.injEq]
        cases hkv : k.valid with
        | true => exact (((C44_compute_order_partial.1 i.id k hv hkv).1).trans eq_comm)
        | false =>
          constructor
          · intro h
            simp [CId.compare, hv, hkv] at h
          · rintro rfl
            rw [hv] at hkv; cases hkv
      unfold mark
      by_cases h : some k = some i.id
      · simp only [if_pos (hk.mpr h), if_pos h]; decide +kernel
      · simp only [if_neg (fun g => h (hk.mp g)), if_neg h]
  rw [hd]
  have l1 : LABEL_ID = codes "Device ID Str" ++ List.replicate (15 - "Device ID Str".length) 32 ++ codes ": " := by
    decide +kernel
  have l2 : LABEL_ARCH = codes "\r\n" ++ (codes "Architecture" ++ List.replicate (15 - "Architecture".length) 32 ++
    codes ": ") := by decide +kernel
  have l3 : LABEL_PLATFORM = codes "\r\n" ++ (codes "Platform" ++ List.replicate (15 - "Platform".length) 32 ++
    codes ": ") := by decide +kernel
  have l4 : LABEL_NAME = codes "\r\n" ++ (codes "Name" ++ List.replicate (15 - "Name".length) 32 ++
    codes ": ") := by decide +kernel
  have l5 : NEWLINE = codes "\r\n" := by decide +kernel
  have l6 : codes ": n/a" = codes ": " ++ NOT_AVAILABLE := by decide +kernel
  rw [l1, l2, l3, l4, l5]
  unfold infoLine infoText
  cases arch <;> cases platform <;> cases name <;>
    simp only [shown, infoLine, pad10, l6, List.append_assoc]

/-- **C92**: the id printed is platform, point and device, cut after 15 characters. -/
theorem C92_id_text (p d : Nat) (hp : p < 2 ^ 32) (hd : d < 2 ^ 32) :
    idText ⟨p, d⟩ = (digits p ++ [46] ++ digits d).take 15 := by
  have hv : (⟨p, d⟩ : CId).valid = true := by simp [CId.valid]
  have tp : toUInt32 (p : Int) = p := by unfold toUInt32; omega
  have td : toUInt32 (d : Int) = d := by unfold toUInt32; omega
  unfold idText CId.formatted
  rw [if_pos ⟨hv, by simp, by simp⟩]
  simp only [tp, td, List.length_replicate]
  unfold snprintf cstr
  rw [if_neg (by simp)]
  simp only [show 16 - 1 = 15 from rfl]
  rw [List.takeWhile_append_of_pos]
  · simp
  · intro c hc
    have hc' := List.mem_of_mem_take hc
    simp only [List.mem_append, List.mem_singleton] at hc'
    simp only [ne_eq, decide_eq_true_eq]
    rcases hc' with (h | h) | h
    · exact digits_ne_zero _ c h
    · omega
    · exact digits_ne_zero _ c h

/-- **C92 is false of the code**: two ids with the same printed form. -/
theorem C92_id_text_violated : idText ⟨1000000000, 10000⟩ = idText ⟨1000000000, 10001⟩ := by
  decide +kernel

/-- **C92**: printing to an array succeeds iff there is a file and the text, of which there is something, is not longer
than the array; otherwise the array is cleared. -/
theorem C92_print_to_str (file : Bool) (m : Mem) (buf : Str) (i : Info) (dflt : Option CId) (t : Str)
    (ht : print m i dflt = .ok t) (hb : buf ≠ []) :
    ∃ out s, printToStr file m buf (some i) dflt = .ok (out, s) ∧ out.length = buf.length ∧
      (s = true ↔ file = true ∧ 0 < t.length ∧ t.length ≤ buf.length) ∧
      (s = true → out.take t.length = t ∧ ∀ c ∈ out.drop t.length, c = 0) ∧
      (s = false → ∀ c ∈ out, c = 0) := by
  have hl : 0 < buf.length := List.length_pos_of_ne_nil hb
  unfold printToStr
  rw [if_pos hl]
  cases file with
  | false => exact ⟨_, _, rfl, by simp, by simp, by simp, by simp⟩
  | true =>
    simp only [if_true, ht, Res.ok_bind]
    by_cases h : 0 < t.length ∧ t.length ≤ buf.length
    · rw [if_pos h]
      refine ⟨_, _, rfl, by simp; omega, by simp [h], ?_, by simp⟩
      intro _
      refine ⟨by simp, ?_⟩
      simp
    · rw [if_neg h]
      exact ⟨_, _, rfl, by simp, by simp [h], by simp, by simp⟩

/-- **C92, partial**: with an array of more characters than the text has, the array holds the text. -/
theorem C92_print_to_str_partial (m : Mem) (buf : Str) (i : Info) (dflt : Option CId) (t : Str)
    (ht : print m i dflt = .ok t) (h0 : 0 < t.length) (hz : 0 ∉ t) (hl : t.length < buf.length) :
    ∃ out, printToStr true m buf (some i) dflt = .ok (out, true) ∧ arrayText out = .ok t := by
  unfold printToStr
  rw [if_pos (by omega)]
  simp only [if_true, ht, Res.ok_bind]
  rw [if_pos ⟨h0, by omega⟩]
  refine ⟨_, rfl, ?_⟩
  unfold arrayText
  rw [List.drop_replicate, show buf.length - t.length = (buf.length - t.length - 1) + 1 by omega,
    List.replicate_succ, List.map_append, List.map_cons]
  exact textOf_text t hz _

/-- **C92 is false of the code**: printing to an array which just holds the text succeeds, and the text in it does not
end. -/
theorem C92_print_to_str_violated (m : Mem) (buf : Str) (i : Info) (dflt : Option CId) (t : Str)
    (ht : print m i dflt = .ok t) (h0 : 0 < t.length) (hz : 0 ∉ t) (hl : t.length = buf.length) :
    ∃ out, printToStr true m buf (some i) dflt = .ok (out, true) ∧ arrayText out = .ub := by
  unfold printToStr
  rw [if_pos (by omega)]
  simp only [if_true, ht, Res.ok_bind]
  rw [if_pos ⟨h0, by omega⟩]
  refine ⟨_, rfl, ?_⟩
  unfold arrayText
  rw [List.drop_replicate, hl, Nat.sub_self, List.replicate_zero, List.append_nil]
  exact textOf_open t hz

/-- **C92**: without an info nothing is printed, which is a failure. -/
theorem C92_print_nothing (file : Bool) (m : Mem) (buf : Str) (dflt : Option CId) :
    printToStr file m buf none dflt = .ok (List.replicate buf.length 0, false) := by
  unfold printToStr
  cases buf with
  | nil => rfl
  | cons c b => cases file <;> simp

theorem hasText_at {m : Mem} {p : Ptr} {s : Option Str} (h : TextAt m p s) :
    hasText m p = .ok (decide (s ≠ none ∧ s ≠ some [])) := by
  unfold hasText
  cases s with
  | none => simp only [TextAt] at h; simp [h]
  | some s =>
    simp only [TextAt] at h
    rw [if_neg h.1, h.2]
    cases s <;> simp

theorem noneOrText_at {m : Mem} {p : Ptr} {s : Option Str} (h : TextAt m p s) :
    noneOrText m p = .ok (decide (s ≠ some [])) := by
  unfold noneOrText
  cases s with
  | none => simp only [TextAt] at h; simp [h]
  | some s =>
    rw [if_neg h.1, hasText_at h]
    simp

/-- **C92**: a description is valid iff it has a valid id, an architecture and a name, and none of its texts is empty. -/
theorem C92_valid (m : Mem) (i : Info) (arch platform name description : Option Str)
    (ha : TextAt m i.arch arch) (hp : TextAt m i.platform platform) (hn : TextAt m i.name name)
    (hd : TextAt m i.description description) :
    ∃ b, i.valid m = .ok b ∧ (b = true ↔ i.id.valid = true ∧ arch ≠ none ∧ name ≠ none ∧ arch ≠ some [] ∧
      name ≠ some [] ∧ platform ≠ some [] ∧ description ≠ some []) := by
  unfold Info.valid
  rw [hasText_at ha, hasText_at hn, noneOrText_at hp, noneOrText_at hd]
  cases i.id.valid with
  | false => exact ⟨false, rfl, by simp⟩
  | true =>
    simp only [if_true, Res.ok_bind]
    by_cases h1 : arch ≠ none ∧ arch ≠ some []
    · rw [if_pos (by simpa using h1)]
      by_cases h2 : name ≠ none ∧ name ≠ some []
      · rw [if_pos (by simpa using h2)]
        by_cases h3 : platform ≠ some []
        · rw [if_pos (by simpa using h3)]
          exact ⟨_, rfl, by simp [h1, h2, h3]⟩
        · rw [if_neg (by simpa using h3)]
          exact ⟨false, rfl, by simp [h3]⟩
      · rw [if_neg (by simpa using h2)]
        refine ⟨false, rfl, ?_⟩
        simp only [Bool.false_eq_true, false_iff]
        exact fun g => h2 ⟨g.2.2.1, g.2.2.2.2.1⟩
    · rw [if_neg (by simpa using h1)]
      refine ⟨false, rfl, ?_⟩
      simp only [Bool.false_eq_true, false_iff]
      exact fun g => h1 ⟨g.2.1, g.2.2.2.1⟩

example : Info.valid [some [some 99, some 0], some [some 88, some 0]] ⟨⟨0, 1⟩, some 0, none, some 1, none⟩ = .ok true ∧
    Info.valid [some [some 99, some 0], some [some 0]] ⟨⟨0, 1⟩, some 0, none, some 1, none⟩ = .ok false := by
  decide +kernel

example : ∃ t, print [some [some 99, some 0], some [some 88, some 0]] ⟨⟨0, 1⟩, some 0, none, some 1, none⟩ (some ⟨0, 1⟩) =
    .ok t ∧ t.length = 119 := by
  refine ⟨_, rfl, ?_⟩
  decide +kernel

end SixTrack
