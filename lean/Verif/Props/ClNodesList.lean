import Verif.ClNodes
import Verif.Props.NodeId

/-! # Property C93: the list of allowed OpenCL nodes -/

namespace SixTrack

open SixTrack.Node SixTrack.ClNodes

/-- A node in a list of allowed nodes: blanks before, an architecture or none, platform and device, blanks behind. -/
structure NodeEntry where
  before : Str
  arch : Option Bool
  platform : Nat
  device : Nat
  behind : Str

/-- Blanks are blanks, and the numbers fit into an `int`. -/
def NodeEntry.Fine (e : NodeEntry) : Prop :=
  (∀ c ∈ e.before, isSpace c = true) ∧ (∀ c ∈ e.behind, isSpace c = true) ∧ e.platform < 2 ^ 31 ∧ e.device < 2 ^ 31

/-- "opencl:" or "2:" or nothing. -/
def archText : Option Bool → Str
  | none => []
  | some true => [111, 112, 101, 110, 99, 108, 58]
  | some false => [50, 58]

def numberText (e : NodeEntry) : Str := digits e.platform ++ [46] ++ digits e.device

/-- The entry without the blanks before it. -/
def entryBody (e : NodeEntry) : Str := archText e.arch ++ numberText e ++ e.behind

/-- Further entries, each behind a comma (`true`) or a semicolon. -/
def moreText : List (Bool × NodeEntry) → Str
  | [] => []
  | (c, e) :: es => (if c then 44 else 59) :: (e.before ++ (entryBody e ++ moreText es))

/-- A list of nodes. -/
def listText (e : NodeEntry) (es : List (Bool × NodeEntry)) : Str := e.before ++ (entryBody e ++ moreText es)

theorem dropWhile_space {s t : Str} (h : ∀ c ∈ s, isSpace c = true) :
    (s ++ t).dropWhile isSpace = t.dropWhile isSpace := by
  induction s with
  | nil => rfl
  | cons c s ih =>
    rw [List.cons_append, List.dropWhile_cons_of_pos (h c (by simp))]
    exact ih fun d hd => h d (by simp [hd])

theorem digits_cons (n : Nat) : ∃ c r, digits n = c :: r ∧ isDigit c = true := by
  cases h : digits n with
  | nil => exact absurd h (digits_ne_nil n)
  | cons c r => exact ⟨c, r, rfl, digits_isDigit n c (by simp [h])⟩

theorem digit_not_space {c : Nat} (h : isDigit c = true) : isSpace c = false := by
  unfold isDigit at h
  unfold isSpace
  simp only [Bool.and_eq_true, decide_eq_true_eq] at h
  simp only [Bool.or_eq_false_iff, beq_eq_false_iff_ne, Bool.and_eq_false_iff, decide_eq_false_iff_not]
  omega

theorem space_not_digit {c : Nat} (h : isSpace c = true) : isDigit c = false := by
  cases hd : isDigit c with
  | false => rfl
  | true => rw [digit_not_space hd] at h; cases h

theorem number_text (e : NodeEntry) (r : Str) (hr : NoDigit r) :
    number (numberText e ++ r) = some (numberText e, r) := by
  unfold number numberText
  have h1 := takeWhile_digits (digits_isDigit e.platform) (rest := 46 :: (digits e.device ++ r)) (noDigit_cons (by decide))
  have h2 := takeWhile_digits (digits_isDigit e.device) hr
  have e0 : digits e.platform ++ [46] ++ digits e.device ++ r = digits e.platform ++ 46 :: (digits e.device ++ r) := by
    simp
  rw [e0]
  simp only [h1.1, h1.2, List.head?_cons, List.tail_cons, h2.1, h2.2]
  rw [if_pos ⟨digits_ne_nil _, trivial⟩, if_pos (digits_ne_nil _)]

theorem dropArch_text (a : Option Bool) (e : NodeEntry) (r : Str) :
    dropArch (archText a ++ (numberText e ++ r)) = numberText e ++ r := by
  cases a with
  | some b => cases b <;> simp [archText, dropArch]
  | none =>
    have key : ∃ c x t, numberText e ++ r = c :: x :: t ∧ c ≠ 111 ∧ x ≠ 58 := by
      unfold numberText
      obtain ⟨c, t, hc, hd⟩ := digits_cons e.platform
      have hr := digits_isDigit e.platform
      rw [hc] at hr ⊢
      have hc' : c ≠ 111 := by rintro rfl; exact absurd hd (by decide)
      cases t with
      | nil => exact ⟨c, 46, _, rfl, hc', by decide⟩
      | cons d t =>
        refine ⟨c, d, _, rfl, hc', ?_⟩
        rintro rfl
        exact absurd (hr 58 (by simp)) (by decide)
    obtain ⟨c, x, t, hk, h1, h2⟩ := key
    change dropArch (numberText e ++ r) = numberText e ++ r
    rw [hk]
    unfold dropArch
    rw [if_neg (by simp [h1]), if_neg (by simp [h2])]

theorem body_head (e : NodeEntry) (r : Str) : ∃ c t, entryBody e ++ r = c :: t ∧ isSpace c = false := by
  unfold entryBody
  cases h : e.arch with
  | some b =>
    cases b
    · exact ⟨50, _, rfl, by decide⟩
    · exact ⟨111, _, rfl, by decide⟩
  | none =>
    obtain ⟨c, t, hc, hd⟩ := digits_cons e.platform
    refine ⟨c, _, by simp only [archText, numberText, hc, List.nil_append, List.cons_append]; rfl, digit_not_space hd⟩

theorem behind_noDigit {e : NodeEntry} (h : e.Fine) (es : List (Bool × NodeEntry)) :
    NoDigit (e.behind ++ moreText es) := by
  intro d hd
  cases hb : e.behind with
  | nil =>
    rw [hb, List.nil_append] at hd
    cases es with
    | nil => simp [moreText] at hd
    | cons x es =>
      obtain ⟨c, x⟩ := x
      cases c <;> simp [moreText] at hd <;> subst hd <;> decide
  | cons c t =>
    rw [hb] at hd
    simp at hd
    subst hd
    exact space_not_digit (h.2.1 _ (by simp [hb]))

/-- The expression matches an entry at its blanks. -/
theorem entry_number {e : NodeEntry} (h : e.Fine) (es : List (Bool × NodeEntry)) :
    number (dropArch ((e.before ++ (entryBody e ++ moreText es)).dropWhile isSpace)) =
      some (numberText e, e.behind ++ moreText es) := by
  rw [dropWhile_space h.1]
  obtain ⟨c, t, hc, hs⟩ := body_head e (moreText es)
  rw [hc, List.dropWhile_cons_of_neg (by simp [hs]), ← hc]
  unfold entryBody
  rw [List.append_assoc, List.append_assoc, dropArch_text, number_text _ _ (behind_noDigit h es)]

theorem matches_spaces (n : Nat) (s : Str) (h : ∀ c ∈ s, isSpace c = true) : allMatches n false s = [] := by
  induction n generalizing s with
  | zero => rfl
  | succ n ih =>
    unfold allMatches
    have e : matchHere false s = none := by
      unfold matchHere afterSeparator
      have := dropWhile_space (t := []) h
      rw [List.append_nil] at this
      simp [this]
    rw [e]
    cases s with
    | nil => rfl
    | cons c s => exact ih s fun d hd => h d (by simp [hd])

theorem matches_more (es : List (Bool × NodeEntry)) (h : ∀ x ∈ es, x.2.Fine) :
    ∀ (n : Nat) (s : Str), (∀ c ∈ s, isSpace c = true) → es.length < n →
      allMatches n false (s ++ moreText es) = es.map fun x => numberText x.2 := by
  induction es with
  | nil =>
    intro n s hs hn
    rw [moreText, List.append_nil]
    exact matches_spaces n s hs
  | cons x es ih =>
    obtain ⟨c, e⟩ := x
    intro n s hs hn
    cases n with
    | zero => simp at hn
    | succ n =>
      have hf : e.Fine := h (c, e) (by simp)
      have hm : matchHere false (s ++ moreText ((c, e) :: es)) = some (numberText e, e.behind ++ moreText es) := by
        unfold matchHere afterSeparator
        simp only [Bool.false_eq_true, if_false]
        rw [dropWhile_space hs]
        have hor : some (if c then 44 else 59) = some 44 ∨ some (if c then 44 else 59) = some 59 := by
          cases c <;> simp
        have hsep : isSpace (if c then 44 else 59) = false := by cases c <;> decide
        rw [show moreText ((c, e) :: es) = (if c then 44 else 59) :: (e.before ++ (entryBody e ++ moreText es)) from rfl,
          List.dropWhile_cons_of_neg (by simp [hsep])]
        rw [List.head?_cons, List.tail_cons, if_pos hor, entry_number hf]
      unfold allMatches
      rw [hm]
      simp only [List.map_cons]
      rw [ih (fun y hy => h y (by simp [hy])) n e.behind hf.2.1 (by simp at hn; omega)]

theorem matches_list {e : NodeEntry} (he : e.Fine) {es : List (Bool × NodeEntry)} (h : ∀ x ∈ es, x.2.Fine) (n : Nat)
    (hn : es.length + 1 < n) :
    allMatches n true (listText e es) = numberText e :: es.map fun x => numberText x.2 := by
  cases n with
  | zero => omega
  | succ n =>
    unfold allMatches
    have hm : matchHere true (listText e es) = some (numberText e, e.behind ++ moreText es) := by
      unfold matchHere listText
      simp only [if_true]
      rw [entry_number he]
    rw [hm]
    simp only
    rw [matches_more es h n e.behind he.2.1 (by omega)]

theorem parse_number {e : NodeEntry} (h : e.Fine) :
    CId.parse ⟨-1, -1⟩ 0 (numberText e) .noArch = .ok (⟨e.platform, e.device⟩, ARCH_ILLEGAL, true) := by
  obtain ⟨-, h2, h3⟩ := C44_compute_round_trip_partial ⟨e.platform, e.device⟩ ⟨-1, -1⟩ e.platform e.device rfl rfl
    h.2.2.1 h.2.2.2 (List.replicate ((prefixOf 0 .noArch ++ (digits e.platform ++ [46] ++ digits e.device)).length + 1) 0)
    0 0 .noArch trivial (by simp)
  rw [h2] at h3
  exact h3

theorem idsOf_entries (es : List NodeEntry) (h : ∀ e ∈ es, e.Fine) :
    idsOf (es.map numberText) = .ok (es.map fun e => (⟨e.platform, e.device⟩ : CId)) := by
  induction es with
  | nil => rfl
  | cons e es ih =>
    simp only [List.map_cons, idsOf]
    rw [parse_number (h e (by simp)), Res.ok_bind, ih fun x hx => h x (by simp [hx]), Res.ok_bind]
    rfl

/-- The order of node ids. -/
def Before (a b : CId) : Prop := a.platform < b.platform ∨ (a.platform = b.platform ∧ a.device < b.device)

theorem less_iff (a b : CId) : less a b = true ↔ Before a b := by
  unfold less Before; simp

theorem not_less {a b : CId} (h : (!less b a) = true) : Before a b ∨ a = b := by
  rw [Bool.not_eq_true'] at h
  have h' : ¬ Before b a := fun g => by rw [(less_iff b a).mpr g] at h; cases h
  unfold Before at h' ⊢
  obtain ⟨p, d⟩ := a
  obtain ⟨q, e⟩ := b
  simp only [CId.mk.injEq] at h' ⊢
  omega

theorem compare_zero {a b : CId} (h : 0 ≤ a.platform ∧ 0 ≤ a.device) : a.compare b = 0 ↔ a = b := by
  have ha : a.valid = true := by unfold CId.valid; simp; omega
  cases hb : b.valid with
  | true => exact (C44_compute_order_partial.1 a b ha hb).1
  | false =>
    constructor
    · intro g; simp [CId.compare, ha, hb] at g
    · rintro rfl; rw [ha] at hb; cases hb

theorem uniqueFrom_sorted (a : CId) (l : List CId) (hs : (a :: l).Pairwise fun a b => Before a b ∨ a = b)
    (hv : ∀ x ∈ a :: l, 0 ≤ x.platform ∧ 0 ≤ x.device) :
    (uniqueFrom a l).Pairwise Before ∧ ∀ x, x ∈ uniqueFrom a l ↔ x ∈ a :: l := by
  induction l generalizing a with
  | nil => simp [uniqueFrom]
  | cons b l ih =>
    rw [List.pairwise_cons] at hs
    unfold uniqueFrom
    by_cases h : a.compare b = 0
    · have hab : a = b := (compare_zero (hv a (by simp))).mp h
      subst hab
      rw [if_pos h]
      obtain ⟨i1, i2⟩ := ih a hs.2 (fun x hx => hv x (by simp at hx ⊢; tauto))
      exact ⟨i1, fun x => by rw [i2]; simp⟩
    · have hne : a ≠ b := fun g => h ((compare_zero (hv a (by simp))).mpr g)
      obtain ⟨i1, i2⟩ := ih b hs.2 (fun x hx => hv x (by simp at hx ⊢; tauto))
      rw [if_neg h]
      refine ⟨?_, fun x => by simp [i2]⟩
      rw [List.pairwise_cons]
      refine ⟨fun x hx => ?_, i1⟩
      rw [i2] at hx
      have hb : Before a b := (hs.1 b (by simp)).resolve_right hne
      rcases List.mem_cons.mp hx with rfl | hx'
      · exact hb
      · rcases (List.pairwise_cons.mp hs.2).1 x hx' with g | rfl
        · unfold Before at hb g ⊢; omega
        · exact hb

theorem unique_sorted (l : List CId) (hs : l.Pairwise fun a b => Before a b ∨ a = b)
    (hv : ∀ a ∈ l, 0 ≤ a.platform ∧ 0 ≤ a.device) :
    (unique l).Pairwise Before ∧ ∀ a, a ∈ unique l ↔ a ∈ l := by
  cases l with
  | nil => simp [unique]
  | cons a l => exact uniqueFrom_sorted a l hs hv

/-- **C93 (list)**: a list of nodes, separated by commas and semicolons, with blanks and with or without the architecture
before each, allows exactly the nodes in it; they come in order, and each once. -/
theorem C93_list (env : Environment) (name : Option Str) (e : NodeEntry) (es : List (Bool × NodeEntry))
    (he : e.Fine) (hes : ∀ x ∈ es, x.2.Fine) (ht : env (name.getD DEVICES) = some (listText e es)) :
    ∃ ids, allowedNodes env name = .ok ids ∧ ids.Pairwise Before ∧
      ∀ id : CId, id ∈ ids ↔ ∃ x ∈ e :: es.map Prod.snd, id = ⟨x.platform, x.device⟩ := by
  have hne : listText e es ≠ [] := by
    unfold listText
    obtain ⟨c, t, hc, -⟩ := body_head e (moreText es)
    rw [hc]
    simp
  have hlen : ∀ es : List (Bool × NodeEntry), es.length ≤ (moreText es).length := by
    intro es
    induction es with
    | nil => simp
    | cons x es ih => obtain ⟨c, x⟩ := x; simp [moreText]; omega
  have hl : es.length + 1 < (listText e es).length + 1 := by
    unfold listText
    obtain ⟨c, t, hc, -⟩ := digits_cons e.platform
    have := hlen es
    simp only [List.length_append, entryBody, numberText, hc, List.length_cons]
    omega
  have hm := matches_list he hes _ hl
  have hall : ∀ x ∈ e :: es.map Prod.snd, x.Fine := by
    intro x hx
    rcases List.mem_cons.mp hx with rfl | hx
    · exact he
    · obtain ⟨y, hy, rfl⟩ := List.mem_map.mp hx
      exact hes y hy
  have hi := idsOf_entries (e :: es.map Prod.snd) hall
  have hsame : (numberText e :: es.map fun x => numberText x.2) = (e :: es.map Prod.snd).map numberText := by
    simp
  unfold allowedNodes
  rw [ht]
  simp only [if_pos hne]
  rw [hm, hsame, hi, Res.ok_bind]
  refine ⟨_, rfl, ?_⟩
  have hsort : (List.insertionSort (fun a b => (!less b a) = true)
      ((e :: es.map Prod.snd).map fun e => (⟨e.platform, e.device⟩ : CId))).Pairwise fun a b => Before a b ∨ a = b := by
    have : Std.Total (fun a b : CId => (!less b a) = true) := ⟨fun a b => by
      by_cases h : less b a = true
      · right
        have hb := (less_iff b a).mp h
        rw [Bool.not_eq_true']
        cases hc : less a b with
        | false => rfl
        | true =>
          have ha := (less_iff a b).mp hc
          unfold Before at ha hb; omega
      · left; simp [h]⟩
    have : IsTrans CId (fun a b : CId => (!less b a) = true) := ⟨fun a b c h1 h2 => by
      rw [Bool.not_eq_true']
      cases hc : less c a with
      | false => rfl
      | true =>
        have hca := (less_iff c a).mp hc
        rcases not_less h1 with g1 | rfl
        · rcases not_less h2 with g2 | rfl
          · unfold Before at *; omega
          · unfold Before at *; omega
        · rw [hc] at h2; cases h2⟩
    exact (List.pairwise_insertionSort _ _).imp not_less
  obtain ⟨u1, u2⟩ := unique_sorted _ hsort (by
    intro a ha
    rw [List.mem_insertionSort, List.mem_map] at ha
    obtain ⟨x, -, rfl⟩ := ha
    exact ⟨by simp, by simp⟩)
  refine ⟨u1, fun id => ?_⟩
  rw [u2, List.mem_insertionSort, List.mem_map]
  constructor
  · rintro ⟨x, hx, rfl⟩; exact ⟨x, hx, rfl⟩
  · rintro ⟨x, hx, rfl⟩; exact ⟨x, hx, rfl⟩

/-- "0.0, opencl:1.2;2:0.1" -/
example : allowedNodes (fun _ => some [48, 46, 48, 44, 32, 111, 112, 101, 110, 99, 108, 58, 49, 46, 50, 59, 50, 58, 48, 46, 49])
    none = .ok [⟨0, 0⟩, ⟨0, 1⟩, ⟨1, 2⟩] := by decide +kernel

/-- **C93 (no list)**: no nodes are allowed by a variable that is not set or empty. -/
theorem C93_no_list (env : Environment) (name : Option Str)
    (h : env (name.getD DEVICES) = none ∨ env (name.getD DEVICES) = some []) : allowedNodes env name = .ok [] := by
  unfold allowedNodes
  rcases h with h | h
  · rw [h]
  · rw [h]; simp

/-- The codes of the characters of a text. -/
def codesOf (s : String) : Str := s.toList.map Char.toNat

/-- The texts in the code, base_context.cpp:2407, 2503, 2631, 2671 and 2675, and that of base_context.h. -/
theorem C93_texts : DEVICES = codesOf "SIXTRACKLIB_DEVICES" ∧ OPENCL = codesOf "opencl" ∧ FIRST = codesOf "first" ∧
    ALL = codesOf "all" ∧ NO_DEVICES = codesOf "No OpenCL Devices found\r\n" := by
  decide +kernel

/-- Without a name, or with an empty one, the variable `SIXTRACKLIB_DEVICES` says which nodes are chosen; with another name,
the variable of that name. -/
theorem C93_choice (env : Environment) (c : Str) (hc : c ≠ []) :
    choice env none = env (codesOf "SIXTRACKLIB_DEVICES") ∧ choice env (some []) = env (codesOf "SIXTRACKLIB_DEVICES") ∧
      choice env (some c) = env c := by
  rw [← C93_texts.1]
  exact ⟨rfl, rfl, if_pos hc⟩

example : choice (fun n => if n = codesOf "SIXTRACKLIB_DEVICES" then some (codesOf "first") else none) none =
    some (codesOf "first") := by
  decide +kernel

/-- **C93 is false of the code**: "4294967296.0" is undefined. -/
theorem C93_huge_violated :
    allowedNodes (fun _ => some [52, 50, 57, 52, 57, 54, 55, 50, 57, 54, 46, 48]) none = .ub := by
  decide +kernel

/-- **C93 is false of the code**: "0.1x" and "0.1.7" allow the node 0.1. -/
theorem C93_garbage_violated :
    allowedNodes (fun _ => some [48, 46, 49, 120]) none = .ok [⟨0, 1⟩] ∧
      allowedNodes (fun _ => some [48, 46, 49, 46, 55]) none = .ok [⟨0, 1⟩] := by
  decide +kernel

end SixTrack
