import Verif.Props.ClNodes
import Verif.Props.NodeInfoPrint

/-! # Property C93: ids copied, printed lists of nodes, and where choosing nodes goes wrong -/

namespace SixTrack

open SixTrack.Node SixTrack.CInfo SixTrack.ClNodes

/-- **C93 (ids)**: at most `maxNum` ids are copied, beginning behind the first `skip`. -/
theorem C93_ids (ids : List CId) (maxNum skip : Nat) : copyIds ids maxNum skip = (ids.drop skip).take maxNum := by
  have key : ∀ n, (ids.drop skip).length ≤ n → (ids.drop skip).take n = ids.drop skip :=
    fun n hn => List.take_of_length_le hn
  unfold copyIds
  by_cases h0 : 0 < maxNum
  · rw [if_pos h0]
    by_cases hs : skip ≤ ids.length
    · simp only [if_pos hs]
      by_cases hm : maxNum < ids.length - skip
      · simp only [if_pos hm, if_pos h0]
      · simp only [if_neg hm]
        rw [key maxNum (by simp; omega)]
        by_cases hz : 0 < ids.length - skip
        · rw [if_pos hz, key _ (by simp)]
        · rw [if_neg hz, List.drop_eq_nil_of_le (by omega)]
    · simp only [if_neg hs]
      rw [List.drop_eq_nil_of_le (by omega)]
      simp
  · rw [if_neg h0, show maxNum = 0 by omega]
    simp

example : copyIds [⟨0, 0⟩, ⟨0, 1⟩, ⟨1, 0⟩, ⟨1, 1⟩] 2 1 = [⟨0, 1⟩, ⟨1, 0⟩] := by decide

/-! ## Printing -/

theorem textOrNone_congr {m m' : Mem} {p : Ptr} (h : ∀ q ∈ p.toList, m'[q]? = m[q]?) :
    textOrNone m' p = textOrNone m p := by
  cases p with
  | none => rfl
  | some q =>
    unfold textOrNone
    rw [readStr_congr (h q (by simp))]

theorem print_congr {m m' : Mem} {i : Info} (h : ∀ q ∈ i.ptrs, m'[q]? = m[q]?) (d : Option CId) :
    print m' i d = print m i d := by
  unfold print
  rw [textOrNone_congr (p := i.arch) (fun q hq => h q (by simp [Info.ptrs]; simp at hq; simp [hq])),
    textOrNone_congr (p := i.platform) (fun q hq => h q (by simp [Info.ptrs]; simp at hq; simp [hq])),
    textOrNone_congr (p := i.name) (fun q hq => h q (by simp [Info.ptrs]; simp at hq; simp [hq]))]

/-- The text printed for a description, which fits into the array. -/
def FitsArray (m : Mem) (i : Info) (t : Str) : Prop := print m i none = .ok t ∧ 0 ∉ t ∧ 0 < t.length ∧ t.length < 2048

theorem printLoop_ok (is : List Info) : ∀ (ts : List Str) (printed : Bool) (out buf : Str) (m : Mem),
    buf.length = 2048 → OwnedAll m is → List.Forall₂ (FitsArray m) is ts →
    printLoop true printed out buf m is =
      .ok (printed || !is.isEmpty, out ++ (if printed then (ts.map fun t => NEWLINE ++ t).flatten
        else (ts.intersperse NEWLINE).flatten), kill m (allPtrs is)) := by
  induction is with
  | nil =>
    intro ts printed out buf m _ _ h
    cases h
    cases printed <;> simp [printLoop, allPtrs, kill]
  | cons i is ih =>
    intro ts printed out buf m hb ⟨hn, hl⟩ h
    cases h with
    | @cons _ t _ ts ht hts =>
    have hn' : (i.ptrs ++ allPtrs is).Nodup := by simpa [allPtrs] using hn
    obtain ⟨h1, h2, h3⟩ := List.nodup_append.mp hn'
    have hm : ∀ q, q ∈ i.ptrs ∨ q ∈ allPtrs is → q ∈ allPtrs (i :: is) := by
      intro q hq
      simpa only [allPtrs, List.flatMap_cons, List.mem_append] using hq
    have e := free_info (m := m) ⟨h1, fun q hq => hl q (hm q (.inl hq))⟩ []
    simp only [List.append_nil] at e
    obtain ⟨o, s, e1, e2, -⟩ := C92_print_to_str true m buf i none t ht.1 (List.ne_nil_of_length_pos (by omega))
    obtain ⟨o', e3, e4⟩ := C92_print_to_str_partial m buf i none t ht.1 ht.2.2.1 ht.2.1 (by have := ht.2.2.2; omega)
    rw [e1, Res.ok_inj, Prod.mk.injEq] at e3
    obtain ⟨rfl, rfl⟩ := e3
    have hkeep : ∀ q, q ∈ allPtrs is → (kill m i.ptrs)[q]? = m[q]? := by
      intro q hq
      rw [kill_get, if_neg]
      exact fun g => h3 q g.1 q hq rfl
    have hF : List.Forall₂ (FitsArray (kill m i.ptrs)) is ts := by
      clear ih e e1 e2 e4 hn hl hn' hm h2 h3
      induction hts with
      | nil => exact .nil
      | @cons j u js us hj hjs ih2 =>
        refine .cons ⟨?_, hj.2⟩ (ih2 fun q hq => hkeep q (by simp only [allPtrs, List.flatMap_cons, List.mem_append]; exact .inr hq))
        rw [print_congr fun q hq => hkeep q (by simp only [allPtrs, List.flatMap_cons, List.mem_append]; exact .inl hq)]
        exact hj.1
    have hr := ih ts true ((if printed then out ++ NEWLINE else out) ++ t) o (kill m i.ptrs) (by omega)
      ⟨h2, fun q hq => Live.kill (hl q (hm q (.inr hq))) fun g => h3 q g q hq rfl⟩ hF
    unfold printLoop
    simp only [e1, e, Res.ok_bind, if_true, e4, if_pos ht.2.2.1, hr]
    rw [← kill_append]
    have hi : ∀ (t : Str) (ts : List Str), ((t :: ts).intersperse NEWLINE).flatten =
        t ++ (ts.map fun t => NEWLINE ++ t).flatten := by
      intro t ts
      induction ts generalizing t with
      | nil => simp
      | cons u us ihu => rw [List.intersperse_cons_cons, List.flatten_cons, List.flatten_cons, ihu]; simp
    cases printed
    · simp [hi, allPtrs]
    · simp [allPtrs]

/-- **C93 (list printed), partial**: the texts of the descriptions with an empty line between them; the descriptions are
freed, each once.  Missing: texts that do not fit into the array of 2048 characters. -/
theorem C93_print_partial (m : Mem) (is : List Info) (ts : List Str) (ho : OwnedAll m is)
    (h : List.Forall₂ (FitsArray m) is ts) :
    printAll true m is = .ok (if is = [] then codes "No OpenCL Devices found\r\n"
      else (ts.intersperse (codes "\r\n")).flatten, kill m (allPtrs is)) := by
  unfold printAll
  rw [printLoop_ok is ts false [] _ m List.length_replicate ho h, Res.ok_bind]
  have l1 : NO_DEVICES = codes "No OpenCL Devices found\r\n" := by decide +kernel
  have l2 : NEWLINE = codes "\r\n" := by decide +kernel
  rw [← l1, ← l2]
  cases is with
  | nil => cases h; simp
  | cons i is => simp

/-- **C93 is false of the code**: if the text of a description has just 2048 characters, the array is read behind its
end. -/
theorem C93_print_full_violated (m : Mem) (i : Info) (t : Str) (ho : Owned m i) (ht : print m i none = .ok t)
    (hz : 0 ∉ t) (hl : t.length = 2048) : printAll true m [i] = .ub := by
  obtain ⟨o, e1, e2⟩ := C92_print_to_str_violated m (List.replicate 2048 0) i none t ht (by omega) hz (hl.trans List.length_replicate.symm)
  have e := free_info ho []
  simp only [List.append_nil] at e
  unfold printAll printLoop
  simp only [Bool.false_eq_true, if_false, e1, Res.ok_bind, e, if_true, e2]
  rfl

/-- **C93 is false of the code**: a node whose text is longer is not printed; if it is the only one, there seem to be
none. -/
theorem C93_print_long_violated (m : Mem) (i : Info) (t : Str) (ho : Owned m i) (ht : print m i none = .ok t)
    (hl : 2048 < t.length) : ∃ m', printAll true m [i] = .ok (codes "No OpenCL Devices found\r\n", m') := by
  have e := free_info ho []
  simp only [List.append_nil] at e
  have l1 : NO_DEVICES = codes "No OpenCL Devices found\r\n" := by decide +kernel
  have e1 : printToStr true m (List.replicate 2048 0) (some i) none = .ok (List.replicate 2048 0, false) := by
    unfold printToStr
    rw [if_pos (by rw [List.length_replicate]; omega)]
    simp only [if_true, ht, Res.ok_bind]
    rw [if_neg (by rw [List.length_replicate]; omega), List.length_replicate]
  refine ⟨kill m i.ptrs, ?_⟩
  unfold printAll printLoop
  simp only [Bool.false_eq_true, if_false, e1, Res.ok_bind, e, printLoop, l1, List.nil_append]

/-- A description whose name has `n` characters. -/
def longName (n : Nat) : Mem × Info :=
  ([some (List.replicate n (some 97) ++ [some 0])], ⟨⟨0, 0⟩, none, none, some 0, none⟩)

theorem longName_print (n : Nat) (hn : 10 ≤ n) :
    ∃ t, print (longName n).1 (longName n).2 none = .ok t ∧ 0 ∉ t ∧ t.length = 92 + n := by
  have hr : readStr (longName n).1 (some 0) = .ok (List.replicate n 97) := by
    have := textOf_text (List.replicate n 97) (by simp) []
    rw [List.map_replicate] at this
    exact this
  refine ⟨_, by
    unfold print
    rw [text_or_none (p := (longName n).2.arch) (s := none) rfl,
      text_or_none (p := (longName n).2.platform) (s := none) rfl,
      text_or_none (p := (longName n).2.name) (s := some (List.replicate n 97)) ⟨by simp [longName], hr⟩]
    rfl, ?_, ?_⟩
  · have h1 : 0 ∉ LABEL_ID ++ pad10 (idText (longName n).2.id) ++ mark (longName n).2.id none ++ LABEL_ARCH ++ shown none ++
        LABEL_PLATFORM ++ shown none ++ LABEL_NAME := by
      change 0 ∉ LABEL_ID ++ pad10 (idText ⟨0, 0⟩) ++ mark ⟨0, 0⟩ none ++ LABEL_ARCH ++ shown none ++
        LABEL_PLATFORM ++ shown none ++ LABEL_NAME
      decide +kernel
    rw [List.mem_append, List.mem_append]
    rintro ((h | h) | h)
    · exact h1 h
    · simp [shown, pad10] at h
    · simp [NEWLINE] at h
  · have h1 : (LABEL_ID ++ pad10 (idText (longName n).2.id) ++ mark (longName n).2.id none ++ LABEL_ARCH ++ shown none ++
        LABEL_PLATFORM ++ shown none ++ LABEL_NAME).length = 90 := by
      change (LABEL_ID ++ pad10 (idText ⟨0, 0⟩) ++ mark ⟨0, 0⟩ none ++ LABEL_ARCH ++ shown none ++
        LABEL_PLATFORM ++ shown none ++ LABEL_NAME).length = 90
      decide +kernel
    rw [List.length_append, List.length_append, h1]
    simp [shown, pad10, NEWLINE]
    omega

theorem longName_owned (n : Nat) : Owned (longName n).1 (longName n).2 := by
  refine ⟨by simp [longName, Info.ptrs], fun q hq => ?_⟩
  have : q = 0 := by simpa [longName, Info.ptrs] using hq
  subst this
  exact ⟨_, rfl⟩

example : ∃ m i t, Owned m i ∧ print m i none = .ok t ∧ 0 ∉ t ∧ t.length = 2048 := by
  obtain ⟨t, h1, h2, h3⟩ := longName_print 1956 (by omega)
  exact ⟨_, _, t, longName_owned _, h1, h2, h3⟩

example : ∃ m i t, Owned m i ∧ print m i none = .ok t ∧ 2048 < t.length := by
  obtain ⟨t, h1, -, h3⟩ := longName_print 3000 (by omega)
  exact ⟨_, _, t, longName_owned _, h1, by omega⟩

example : ∃ m i t, Owned m i ∧ FitsArray m i t := by
  obtain ⟨t, h1, h2, h3⟩ := longName_print 100 (by omega)
  exact ⟨_, _, t, longName_owned _, h1, h2, by omega, by omega⟩

/-! ## Where choosing nodes goes wrong -/

/-- Two platforms; the first has no devices. -/
def twoPlatforms : List Platform := [⟨[80], none⟩, ⟨[81], some [⟨7, [65], []⟩]⟩]

/-- **C93 is false of the code**: with assertions a platform without devices makes the program abort, although there is a
device; without them the device is found on "platform 0". -/
theorem C93_platform_violated :
    available true (fun _ => none) none true (fun _ _ _ => true) [] twoPlatforms = .aborts ∧
      ∃ m is, available false (fun _ => none) none true (fun _ _ _ => true) [] twoPlatforms =
        .ok (m, ⟨[⟨7, [65], []⟩], [⟨0, 0⟩], is⟩) := by
  refine ⟨by decide +kernel, _, _, rfl⟩

/-- **C93 is false of the code**: with an empty name of the variable, the list of `SIXTRACKLIB_DEVICES` is looked at to see
that there is a list, but its nodes are not given out. -/
theorem C93_empty_name_violated :
    ∃ env : Environment, env DEVICES = some [48, 46, 48] ∧
      (∃ m is, available false env none true (fun _ _ _ => true) [] twoPlatforms =
        .ok (m, ⟨[⟨7, [65], []⟩], [⟨0, 0⟩], is⟩)) ∧
      ∃ m, available false env (some []) true (fun _ _ _ => true) [] twoPlatforms = .ok (m, ⟨[], [], []⟩) := by
  refine ⟨fun n => if n = DEVICES then some [48, 46, 48] else none, by decide +kernel, ?_, ?_⟩
  · exact ⟨[textBlock 6 OPENCL, textBlock 1 [65], textBlock 1 [81]], [⟨⟨0, 0⟩, some 0, some 2, some 1, none⟩],
      by decide +kernel⟩
  · exact ⟨[none, none, none], by decide +kernel⟩

/-- **C93 is false of the code**: a device without a name is given out with a description that has no id. -/
theorem C93_no_name_violated :
    ∃ m, available false (fun _ => none) none true (fun _ _ _ => true) [] [⟨[80], some [⟨7, [], []⟩]⟩] =
      .ok (m, ⟨[⟨7, [], []⟩], [⟨0, 0⟩], [Info.preset]⟩) := by
  exact ⟨[], by decide +kernel⟩

example : CleanAll twoPlatforms ∧ allDevices twoPlatforms = [⟨[81], ⟨7, [65], []⟩, 0, 0⟩] := by
  refine ⟨?_, rfl⟩
  simp [CleanAll, twoPlatforms, Clean]

end SixTrack
