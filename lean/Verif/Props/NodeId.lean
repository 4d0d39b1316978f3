import Verif.NodeId
import Mathlib.Tactic.ByContra
import Mathlib.Tactic.SplitIfs

/-! # Property C44: printed form and ordering of node ids -/

namespace SixTrack
open Node

namespace Node

theorem digits_ne_nil (n : Nat) : digits n ≠ [] := by
  rw [digits]
  split
  · simp
  · simp

theorem digits_isDigit : ∀ n, ∀ c ∈ digits n, isDigit c = true := by
  intro n
  induction n using Nat.strongRecOn with
  | _ n ih =>
    intro c hc
    rw [digits] at hc
    split at hc
    · rename_i h
      obtain rfl : c = 48 + n := by simpa using hc
      simp only [isDigit, Bool.and_eq_true, decide_eq_true_eq]
      omega
    · rename_i h
      rw [List.mem_append] at hc
      rcases hc with hc | hc
      · exact ih (n / 10) (by omega) c hc
      · obtain rfl : c = 48 + n % 10 := by simpa using hc
        simp only [isDigit, Bool.and_eq_true, decide_eq_true_eq]
        omega

theorem digitsVal_digits : ∀ n, digitsVal (digits n) = n := by
  intro n
  induction n using Nat.strongRecOn with
  | _ n ih =>
    rw [digits]
    split
    · simp [digitsVal]
    · rename_i h
      have := ih (n / 10) (by omega)
      unfold digitsVal at this ⊢
      rw [List.foldl_append, this]
      simp only [List.foldl_cons, List.foldl_nil]
      omega

/-- The rest of the input does not go on with a digit. -/
def NoDigit (s : Str) : Prop := ∀ c, s.head? = some c → isDigit c = false

theorem takeWhile_digits {ds rest : Str} (h : ∀ c ∈ ds, isDigit c = true) (hr : NoDigit rest) :
    (ds ++ rest).takeWhile isDigit = ds ∧ (ds ++ rest).dropWhile isDigit = rest := by
  induction ds with
  | nil =>
    cases rest with
    | nil => simp
    | cons c t =>
      have := hr c rfl
      rw [List.nil_append, List.takeWhile_cons, List.dropWhile_cons]
      simp [this]
  | cons d t ih =>
    have hd := h d (by simp)
    have := ih (fun c hc => h c (by simp [hc]))
    rw [List.cons_append, List.takeWhile_cons, List.dropWhile_cons, if_pos hd, if_pos hd, this.1, this.2]
    simp

theorem dropSpace_eq {c : Nat} {t : Str} (h : isSpace c = false) :
    (c :: t).dropWhile isSpace = c :: t := by
  simp [List.dropWhile, h]

/-- Reading back a printed integer. -/
theorem scanInt_print {lo hi z : Int} (h1 : lo ≤ z) (h2 : z ≤ hi) {rest : Str} (hr : NoDigit rest) :
    scanInt lo hi (printInt z ++ rest) = .ok (some (z, rest)) := by
  have hd := digits_isDigit z.natAbs
  have hne := digits_ne_nil z.natAbs
  have hv := digitsVal_digits z.natAbs
  by_cases hz : z < 0
  · unfold printInt
    rw [if_pos hz]
    unfold scanInt
    rw [List.cons_append, dropSpace_eq (by decide)]
    simp only [List.head?_cons, List.tail_cons, true_or, if_true]
    rw [(takeWhile_digits hd hr).1, (takeWhile_digits hd hr).2, if_neg hne, hv]
    have : -((z.natAbs : Nat) : Int) = z := by omega
    rw [this, if_pos ⟨h1, h2⟩]
  · unfold printInt
    rw [if_neg hz]
    obtain ⟨c, t, hct⟩ := List.exists_cons_of_ne_nil hne
    have hc : isDigit c = true := hd c (by rw [hct]; simp)
    have hc' : 48 ≤ c ∧ c ≤ 57 := by simpa [isDigit] using hc
    have hsp : isSpace c = false := by
      simp only [isSpace, Bool.or_eq_false_iff, beq_eq_false_iff_ne, Bool.and_eq_false_iff,
        decide_eq_false_iff_not]
      omega
    unfold scanInt
    rw [hct, List.cons_append, dropSpace_eq hsp]
    have h45 : ¬ (some c = some 45) := by simp; omega
    have h43 : ¬ (some c = some 43) := by simp; omega
    simp only [List.head?_cons, h45, h43, or_self, if_false]
    rw [← List.cons_append, ← hct, (takeWhile_digits hd hr).1, (takeWhile_digits hd hr).2,
      if_neg hne, hv]
    have : ((z.natAbs : Nat) : Int) = z := by omega
    rw [this, if_pos ⟨h1, h2⟩]

theorem noDigit_cons {c : Nat} {t : Str} (h : isDigit c = false) : NoDigit (c :: t) := by
  intro d hd
  obtain rfl : c = d := by simpa using hd
  exact h

theorem noDigit_nil : NoDigit [] := by
  intro d hd
  simp at hd

theorem scanPair_print {lo hi a b : Int} (ha : lo ≤ a ∧ a ≤ hi) (hb : lo ≤ b ∧ b ≤ hi) :
    scanPair lo hi (printInt a ++ [46] ++ printInt b) = .ok (some (a, b)) := by
  unfold scanPair
  rw [List.append_assoc, List.singleton_append,
    scanInt_print ha.1 ha.2 (noDigit_cons (by decide)), Res.ok_bind]
  simp only [List.head?_cons, if_true, List.tail_cons]
  have := scanInt_print hb.1 hb.2 noDigit_nil
  rw [List.append_nil] at this
  rw [this, Res.ok_bind]

theorem printInt_ne_nil (z : Int) : printInt z ≠ [] := by
  unfold printInt
  split
  · simp
  · exact digits_ne_nil _

theorem printInt_ne_zero (z : Int) : ∀ c ∈ printInt z, c ≠ 0 := by
  have hd := digits_isDigit z.natAbs
  have : ∀ c ∈ digits z.natAbs, c ≠ 0 := by
    intro c hc h0
    have := hd c hc
    rw [h0] at this
    exact absurd this (by decide)
  intro c hc
  unfold printInt at hc
  split at hc
  · rcases List.mem_cons.1 hc with rfl | hc
    · decide
    · exact this c hc
  · exact this c hc

theorem printInt_natCast (n : Nat) : printInt n = digits n := by
  unfold printInt
  rw [if_neg (by omega)]
  simp

/-- Text followed by a NUL, read as a C string. -/
theorem cstr_of {s t : Str} (h : ∀ c ∈ s, c ≠ 0) : cstr (s ++ 0 :: t) = s := by
  unfold cstr
  induction s with
  | nil => simp
  | cons c r ih =>
    have hc := h c (by simp)
    rw [List.cons_append, List.takeWhile_cons]
    simp only [ne_eq, hc, not_false_eq_true, decide_true, if_true]
    congr 1
    exact ih (fun x hx => h x (by simp [hx]))

/-- `snprintf` with enough room. -/
theorem snprintf_fits {buf s : Str} {size : Nat} (hs : s.length < size) :
    ∃ t, snprintf buf size s = (s ++ 0 :: t, s.length) := by
  unfold snprintf
  rw [if_neg (by omega), List.take_of_length_le (by omega)]
  exact ⟨_, rfl⟩

end Node

/-- Ids of 64-bit type. -/
def Node.Id.Ranged (n : Id) : Prop :=
  I64MIN ≤ n.platform ∧ n.platform ≤ I64MAX ∧ I64MIN ≤ n.device ∧ n.device ≤ I64MAX

/-- **C44**: parsing the printed form of a valid node id succeeds and gives its platform and device
again; the index of the node parsed into stays as it was. -/
theorem C44_round_trip (n n0 : Id) (hr : n.Ranged) (hv : n.valid = true) :
    n0.fromString n.toString = .ok (⟨n.platform, n.device, n0.index⟩, true) := by
  obtain ⟨r1, r2, r3, r4⟩ := hr
  unfold Id.toString
  rw [if_pos hv]
  unfold Id.print Id.fromString
  rw [if_neg (by simp [printInt_ne_nil]), scanPair_print ⟨r1, r2⟩ ⟨r3, r4⟩, Res.ok_bind]
  have : n.platform ≠ -1 ∧ n.device ≠ -1 := by simpa [Id.valid] using hv
  simp only
  rw [if_pos this]

example : (⟨-9223372036854775808, 12, 3⟩ : Id).toString =
    [45, 57, 50, 50, 51, 51, 55, 50, 48, 51, 54, 56, 53, 52, 55, 55, 53, 56, 48, 56, 46, 49, 50] := by
  decide +kernel

example : (⟨-1, 12, 3⟩ : Id).fromString (⟨7, -12, 3⟩ : Id).toString = .ok (⟨7, -12, 3⟩, true) :=
  C44_round_trip _ _ ⟨by decide, by decide, by decide, by decide⟩ (by decide)

/-- **C44**: printing an invalid id gives the empty text, which is not accepted. -/
theorem C44_invalid (n n0 : Id) (hv : n.valid = false) :
    n.toString = [] ∧ n0.fromString n.toString = .ok (n0, false) := by
  have : n.toString = [] := by unfold Id.toString; rw [if_neg (by simp [hv])]
  rw [this]
  exact ⟨rfl, rfl⟩

example : (⟨-1, 12, 3⟩ : Id).valid = false := by decide

/-- **C44**: printing into an array of characters succeeds exactly if the id is valid and text and
terminating NUL fit; then the array holds the text, otherwise the empty text (unless it has no
room for a character at all).  Nothing is written behind the array. -/
theorem C44_to_chars (n : Id) (cap : Nat) :
    ((n.toChars cap).2 = true ↔ n.valid = true ∧ n.toString.length + 1 ≤ cap) ∧
      ((n.toChars cap).2 = true → cstr (n.toChars cap).1 = n.toString) ∧
      ((n.toChars cap).2 = false → cstr (n.toChars cap).1 = []) ∧
      (n.toChars cap).1.length = cap := by
  unfold Id.toChars
  by_cases h : (n.valid && decide (n.print.length < cap)) = true
  · rw [if_pos h]
    simp only [Bool.and_eq_true, decide_eq_true_eq] at h
    have hs : n.toString = n.print := by unfold Id.toString; rw [if_pos h.1]
    refine ⟨?_, ?_, ?_, ?_⟩
    · rw [hs]; simp [h.1]; omega
    · intro _
      rw [hs]
      have : (List.replicate cap 0).drop n.print.length =
          0 :: List.replicate (cap - n.print.length - 1) 0 := by
        rw [List.drop_replicate, ← List.replicate_succ]
        congr 1
        omega
      simp only
      rw [this]
      apply cstr_of
      intro c hc
      unfold Id.print at hc
      rw [List.mem_append, List.mem_append] at hc
      rcases hc with (hc | hc) | hc
      · exact printInt_ne_zero _ c hc
      · obtain rfl : c = 46 := by simpa using hc
        decide
      · exact printInt_ne_zero _ c hc
    · simp
    · simp; omega
  · rw [if_neg h]
    simp only [Bool.and_eq_true, decide_eq_true_eq, not_and, Nat.not_lt] at h
    refine ⟨?_, ?_, ?_, ?_⟩
    · simp only [Bool.false_eq_true, false_iff, not_and]
      intro hv
      have hs : n.toString = n.print := by unfold Id.toString; rw [if_pos hv]
      rw [hs]
      have := h hv
      omega
    · simp
    · intro _
      unfold cstr
      cases cap with
      | zero => rfl
      | succ k => simp [List.replicate_succ]
    · simp

example : ((⟨7, -12, 3⟩ : Id).toChars 5).2 = false ∧ ((⟨7, -12, 3⟩ : Id).toChars 6).2 = true := by
  decide +kernel

/-- **C44**: the order of node ids is a strict weak order; ids that are not ordered have the same
platform and device. -/
theorem C44_order :
    (∀ a : Id, a.less a = false) ∧
      (∀ a b : Id, a.less b = true → b.less a = false) ∧
      (∀ a b c : Id, a.less b = true → b.less c = true → a.less c = true) ∧
      (∀ a b : Id, (a.less b = false ∧ b.less a = false) ↔
        a.platform = b.platform ∧ a.device = b.device) ∧
      (∀ a b : Id, (a.compare b = 0 ↔ a.platform = b.platform ∧ a.device = b.device) ∧
        a.compare b = - b.compare a) := by
  refine ⟨?_, ?_, ?_, ?_, ?_⟩
  · intro a; simp [Id.less]
  · intro a b
    simp only [Id.less, Bool.or_eq_true, Bool.and_eq_true, decide_eq_true_eq, beq_iff_eq,
      Bool.or_eq_false_iff, Bool.and_eq_false_iff, decide_eq_false_iff_not, beq_eq_false_iff_ne]
    omega
  · intro a b c
    simp only [Id.less, Bool.or_eq_true, Bool.and_eq_true, decide_eq_true_eq, beq_iff_eq]
    omega
  · intro a b
    simp only [Id.less, Bool.or_eq_false_iff, Bool.and_eq_false_iff, decide_eq_false_iff_not,
      beq_eq_false_iff_ne]
    omega
  · intro a b
    have key : ∀ x y : Id, x.less y = true ↔
        x.platform < y.platform ∨ (x.platform = y.platform ∧ x.device < y.device) := by
      intro x y
      simp [Id.less]
    unfold Id.compare
    simp only [key]
    refine ⟨?_, ?_⟩ <;> split_ifs <;> first | omega | (constructor <;> intro <;> first | contradiction | omega)

example : (⟨0, 3, 0⟩ : Id).less ⟨1, 2, 0⟩ = true ∧ (⟨1, 2, 0⟩ : Id).less ⟨1, 3, 5⟩ = true := by decide

/-- **C44**: the order is by platform, then by device, and `compare` agrees with it. -/
theorem C44_order_lexicographic (a b : Id) :
    (a.less b = true ↔ a.platform < b.platform ∨ (a.platform = b.platform ∧ a.device < b.device)) ∧
      (a.compare b = -1 ↔ a.less b = true) ∧ (a.compare b = 1 ↔ b.less a = true) := by
  have key : ∀ x y : Id, x.less y = true ↔
      x.platform < y.platform ∨ (x.platform = y.platform ∧ x.device < y.device) := by
    intro x y
    simp [Id.less]
  refine ⟨key a b, ?_⟩
  unfold Id.compare
  simp only [key]
  refine ⟨?_, ?_⟩ <;> split_ifs <;> constructor <;> intro h <;> first | omega | (simp at h)

/-- **C44** for `to_string` with a format: ids that fit an `int`, an array with room for two more
characters than the text. Without architecture, the text parses back. -/
theorem C44_formatted_partial (n n0 : Id) (buf : Str) (arch : Nat)
    (hr : I32MIN ≤ n.platform ∧ n.platform ≤ I32MAX ∧ I32MIN ≤ n.device ∧ n.device ≤ I32MAX)
    (hv : n.valid = true) (hc : n.toString.length + 2 ≤ buf.length) :
    (n.formatted buf arch .noArch).2 = true ∧
      cstr (n.formatted buf arch .noArch).1 = n.toString ∧
      n0.fromString (cstr (n.formatted buf arch .noArch).1) =
        .ok (⟨n.platform, n.device, n0.index⟩, true) := by
  have h32 : ∀ z : Int, I32MIN ≤ z → z ≤ I32MAX → toInt32 z = z := by
    intro z h1 h2
    unfold I32MIN at h1
    unfold I32MAX at h2
    unfold toInt32
    rw [Int.emod_eq_of_lt (by omega) (by omega)]
    omega
  have hs : n.toString = printInt n.platform ++ [46] ++ printInt n.device := by
    unfold Id.toString
    rw [if_pos hv]
    rfl
  have hnz : ∀ c ∈ n.toString, c ≠ 0 := by
    intro c hcm
    rw [hs, List.mem_append, List.mem_append] at hcm
    rcases hcm with (hcm | hcm) | hcm
    · exact printInt_ne_zero _ c hcm
    · obtain rfl : c = 46 := by simpa using hcm
      decide
    · exact printInt_ne_zero _ c hcm
  have hpos : 0 < n.toString.length := by
    rw [hs]; simp; omega
  obtain ⟨t, ht⟩ := snprintf_fits (buf := buf) (s := n.toString) (size := buf.length - 1) (by omega)
  have e : n.formatted buf arch .noArch = (n.toString ++ 0 :: t, true) := by
    unfold Id.formatted
    rw [if_pos ⟨by omega, by decide, hv⟩]
    simp only
    rw [h32 _ hr.1 hr.2.1, h32 _ hr.2.2.1 hr.2.2.2, ← hs, ht]
    simp only [Prod.mk.injEq, decide_eq_true_eq, true_and]
    omega
  rw [e]
  refine ⟨rfl, cstr_of hnz, ?_⟩
  simp only
  rw [cstr_of hnz]
  apply C44_round_trip _ _ _ hv
  unfold Id.Ranged I64MIN I64MAX
  unfold I32MIN I32MAX at hr
  omega

example : (⟨3, 12, 0⟩ : Id).toString.length + 2 ≤ (List.replicate 6 1 : Str).length := by decide +kernel

/-- **C44 is false of the code** for `to_string` with a format: with an array that just holds text
and NUL, the last character is cut off, success is reported, and the text parses to another id. -/
theorem C44_formatted_violated :
    let n : Id := ⟨0, 12, 0⟩
    let r := n.formatted [7, 7, 7, 7, 7] ARCH_NONE .noArch
    r.2 = true ∧ n.toString.length + 1 = 5 ∧ cstr r.1 = [48, 46, 49] ∧
      n.fromString (cstr r.1) = .ok (⟨0, 1, 0⟩, true) := by
  decide +kernel

/-- **C44 is false of the code** for `to_string` with a format: ids are cut to 32 bits. -/
theorem C44_formatted_wide_violated :
    let n : Id := ⟨2 ^ 32 + 1, 2, 0⟩
    let r := n.formatted (List.replicate 32 0) ARCH_NONE .noArch
    n.valid = true ∧ n.Ranged ∧ r.2 = true ∧ n.fromString (cstr r.1) = .ok (⟨1, 2, 0⟩, true) := by
  refine ⟨by decide, ⟨by decide, by decide, by decide, by decide⟩, ?_, ?_⟩ <;> decide +kernel

/-! ## The older `NS(ComputeNodeId)` -/

namespace Node

/-- The text `NS(ComputeNodeId_to_string_with_format)` is meant to produce. -/
def prefixOf (arch : Nat) : Fmt → Str
  | .noArch => []
  | .archId => digits arch ++ [58]
  | .archStr => archName arch ++ [58]
  | .illegal => []

/-- Architectures a format can express. -/
def Expressible (arch : Nat) : Fmt → Prop
  | .noArch => True
  | .archId => arch ≠ ARCH_NONE ∧ arch ≠ ARCH_ILLEGAL ∧ arch < 2 ^ 64
  | .archStr => arch = ARCH_CPU ∨ arch = ARCH_OPENCL ∨ arch = ARCH_CUDA
  | .illegal => False

theorem takeWhile_colon {s t : Str} (h : ∀ c ∈ s, c ≠ 58) :
    (s ++ 58 :: t).takeWhile (· ≠ 58) = s := by
  induction s with
  | nil => simp
  | cons c r ih =>
    have hc := h c (by simp)
    rw [List.cons_append, List.takeWhile_cons]
    simp only [ne_eq, hc, not_false_eq_true, decide_true, if_true]
    congr 1
    exact ih (fun x hx => h x (by simp [hx]))

theorem digits_ne_zero (n : Nat) : ∀ c ∈ digits n, c ≠ 0 := by
  have := printInt_ne_zero n
  rwa [printInt_natCast] at this

end Node

/-- **C44** for `NS(ComputeNodeId)`: for all three formats, ids of 0 … 2³¹-1 and an array with room
for the text and the NUL, printing succeeds and the text parses back to the id (and the
architecture, if the format has it). -/
theorem C44_compute_round_trip_partial (n n0 : CId) (p d : Nat) (hp : n.platform = p)
    (hd : n.device = d) (hp' : p < 2 ^ 31) (hd' : d < 2 ^ 31) (buf : Str) (arch arch0 : Nat) (f : Fmt)
    (ha : Expressible arch f)
    (hc : (prefixOf arch f ++ (digits p ++ [46] ++ digits d)).length + 1 ≤ buf.length) :
    (n.formatted buf arch f).2 = true ∧
      cstr (n.formatted buf arch f).1 = prefixOf arch f ++ (digits p ++ [46] ++ digits d) ∧
      n0.parse arch0 (cstr (n.formatted buf arch f).1) f =
        .ok (n, if f = .noArch then ARCH_ILLEGAL else arch, true) := by
  have hv : n.valid = true := by simp [CId.valid, hp, hd]
  have hu : ∀ k : Nat, k < 2 ^ 31 → toUInt32 k = k := by
    intro k hk
    unfold toUInt32
    rw [Int.emod_eq_of_lt (by omega) (by omega)]
    simp
  have hn : n = ⟨p, d⟩ := by cases n; simp_all
  have hrange : ∀ k : Nat, k < 2 ^ 31 → I32MIN ≤ (k : Int) ∧ (k : Int) ≤ I32MAX := by
    intro k hk
    unfold I32MIN I32MAX
    omega
  have hscan : scanPair I32MIN I32MAX (digits p ++ [46] ++ digits d) =
      .ok (some ((p : Int), (d : Int))) := by
    have := scanPair_print (hrange p hp') (hrange d hd')
    rwa [printInt_natCast, printInt_natCast] at this
  have hbody0 : ∀ c ∈ digits p ++ [46] ++ digits d, c ≠ 0 := by
    intro c hcm
    rw [List.mem_append, List.mem_append] at hcm
    rcases hcm with (hcm | hcm) | hcm
    · exact digits_ne_zero _ c hcm
    · obtain rfl : c = 46 := by simpa using hcm
      decide
    · exact digits_ne_zero _ c hcm
  have hpre0 : ∀ c ∈ prefixOf arch f, c ≠ 0 := by
    intro c hcm
    cases f with
    | noArch => simp [prefixOf] at hcm
    | illegal => simp [prefixOf] at hcm
    | archId =>
      simp only [prefixOf, List.mem_append] at hcm
      rcases hcm with hcm | hcm
      · exact digits_ne_zero _ c hcm
      · obtain rfl : c = 58 := by simpa using hcm
        decide
    | archStr =>
      simp only [prefixOf, List.mem_append] at hcm
      rcases hcm with hcm | hcm
      · rcases ha with rfl | rfl | rfl <;> revert c <;> decide
      · obtain rfl : c = 58 := by simpa using hcm
        decide
  have hall : ∀ c ∈ prefixOf arch f ++ (digits p ++ [46] ++ digits d), c ≠ 0 := by
    intro c hcm
    rcases List.mem_append.1 hcm with h | h
    · exact hpre0 c h
    · exact hbody0 c h
  obtain ⟨t, ht⟩ := snprintf_fits (buf := List.replicate buf.length 0)
    (s := prefixOf arch f ++ (digits p ++ [46] ++ digits d)) (size := buf.length) (by omega)
  have hfi : f ≠ .illegal := by rintro rfl; exact ha
  have e : n.formatted buf arch f =
      (prefixOf arch f ++ (digits p ++ [46] ++ digits d) ++ 0 :: t, true) := by
    unfold CId.formatted
    rw [if_pos ⟨hv, by omega, hfi⟩, hp, hd, hu p hp', hu d hd']
    cases f with
    | noArch =>
      simp only [prefixOf, List.nil_append] at ht hc ⊢
      rw [ht]
      simp only [Prod.mk.injEq, decide_eq_true_eq, true_and]
      omega
    | archId =>
      simp only [prefixOf] at ht hc ⊢
      rw [if_pos ⟨ha.2.1, ha.1⟩, ht]
      simp only [Prod.mk.injEq, decide_eq_true_eq, true_and]
      omega
    | archStr =>
      simp only [prefixOf] at ht hc ⊢
      rw [if_pos (by rcases ha with rfl | rfl | rfl <;> decide), ht]
      simp only [Prod.mk.injEq, decide_eq_true_eq, true_and]
      omega
    | illegal => exact absurd rfl hfi
  rw [e]
  refine ⟨rfl, cstr_of hall, ?_⟩
  simp only
  rw [cstr_of hall]
  have hne : prefixOf arch f ++ (digits p ++ [46] ++ digits d) ≠ [] := by
    simp
  unfold CId.parse
  rw [if_pos ⟨hne, hfi⟩]
  have hge : (0 : Int) ≤ (p : Int) ∧ (0 : Int) ≤ (d : Int) := by omega
  cases f with
  | noArch =>
    simp only [prefixOf, List.nil_append]
    rw [hscan]
    simp only [Res.ok_bind]
    rw [if_pos hge, hn]
    simp
  | archId =>
    simp only [prefixOf]
    have h1 : scanInt 0 (2 ^ 64 - 1) (digits arch ++ [58] ++ (digits p ++ [46] ++ digits d)) =
        .ok (some ((arch : Int), 58 :: (digits p ++ [46] ++ digits d))) := by
      rw [List.append_assoc]
      have := scanInt_print (lo := 0) (hi := 2 ^ 64 - 1) (z := (arch : Int)) (by omega)
        (by have := ha.2.2; omega) (rest := 58 :: (digits p ++ [46] ++ digits d))
        (noDigit_cons (by decide))
      rw [printInt_natCast] at this
      exact this
    rw [h1]
    simp only [Res.ok_bind, List.head?_cons, if_true, List.tail_cons]
    rw [hscan]
    simp only [Res.ok_bind]
    rw [if_pos hge, hn]
    simp
  | archStr =>
    simp only [prefixOf]
    have hcol : ∀ c ∈ archName arch, c ≠ 58 := by
      rcases ha with rfl | rfl | rfl <;> decide
    have h1 : ((archName arch ++ [58] ++ (digits p ++ [46] ++ digits d)).takeWhile (· ≠ 58)) =
        archName arch := by
      rw [List.append_assoc]
      exact takeWhile_colon hcol
    have h2 : (archName arch).take 31 = archName arch := by
      rcases ha with rfl | rfl | rfl <;> decide
    have h3 : archName arch ≠ [] := by
      rcases ha with rfl | rfl | rfl <;> decide
    have h4 : archOfName (archName arch) = arch := by
      rcases ha with rfl | rfl | rfl <;> decide
    have h5 : (archName arch ++ [58] ++ (digits p ++ [46] ++ digits d)).drop (archName arch).length =
        58 :: (digits p ++ [46] ++ digits d) := by
      rw [List.append_assoc, List.drop_left]
      rfl
    simp only [h1, h2, if_neg h3, h5, List.head?_cons, if_true, List.tail_cons]
    rw [hscan]
    simp only [Res.ok_bind]
    rw [if_pos hge, hn, h4]
    simp
  | illegal => exact absurd rfl hfi

example : Expressible 2 .archStr ∧
    (prefixOf 2 .archStr ++ (digits 1 ++ [46] ++ digits 17)).length + 1 ≤
      (List.replicate 12 0 : Str).length := by
  refine ⟨Or.inr (Or.inl rfl), by decide +kernel⟩

/-- **C44 is false of the code** for `NS(ComputeNodeId)` beyond 31 bits: the text printed for a
valid id with a larger platform cannot be read back (overflow in `sscanf`), or reads back as
another id. -/
theorem C44_compute_wide_violated :
    let n : CId := ⟨2 ^ 31, 0⟩
    let k : CId := ⟨2 ^ 32 + 1, 0⟩
    (n.formatted (List.replicate 16 0) 0 .noArch).2 = true ∧
      n.parse 0 (cstr (n.formatted (List.replicate 16 0) 0 .noArch).1) .noArch = .ub ∧
      k.valid = true ∧ (k.formatted (List.replicate 16 0) 0 .noArch).2 = true ∧
      k.parse 0 (cstr (k.formatted (List.replicate 16 0) 0 .noArch).1) .noArch =
        .ok (⟨1, 0⟩, ARCH_ILLEGAL, true) := by
  refine ⟨?_, ?_, ?_, ?_, ?_⟩ <;> decide +kernel

/-- **C44 is false of the code**: with an architecture that has no name the text starts with the
colon; success is reported, but the text is not accepted. -/
theorem C44_compute_unnamed_violated :
    let n : CId := ⟨1, 2⟩
    let r := n.formatted (List.replicate 16 0) 4 .archStr
    r.2 = true ∧ cstr r.1 = [58, 49, 46, 50] ∧
      n.parse 0 (cstr r.1) .archStr = .ok (n, 0, false) := by
  refine ⟨?_, ?_, ?_⟩ <;> decide +kernel

/-- **C44** for `NS(ComputeNodeId_compare)`, partial: on valid ids it is antisymmetric, transitive
and 0 exactly for equal ids; every invalid id is below every valid one. -/
theorem C44_compute_order_partial :
    (∀ a b : CId, a.valid = true → b.valid = true → (a.compare b = 0 ↔ a = b) ∧
      a.compare b = - b.compare a) ∧
    (∀ a b c : CId, a.valid = true → b.valid = true → c.valid = true →
      a.compare b = -1 → b.compare c = -1 → a.compare c = -1) ∧
    (∀ a b : CId, a.valid = false → b.valid = true → a.compare b = -1 ∧ b.compare a = 1) := by
  refine ⟨?_, ?_, ?_⟩
  · intro a b ha hb
    obtain ⟨ap, ad⟩ := a
    obtain ⟨bp, bd⟩ := b
    unfold CId.compare
    rw [ha, hb]
    simp only [Bool.and_true, if_true, CId.mk.injEq]
    split <;> split <;> split <;> (try split) <;> omega
  · intro a b c ha hb hc
    unfold CId.compare
    rw [ha, hb, hc]
    simp only [Bool.and_true, if_true]
    intro h1 h2
    by_contra h3
    split at h1 <;> split at h2 <;> split at h3 <;> (try split at h1) <;> (try split at h2) <;>
      (try split at h3) <;> (try split at h1) <;> (try split at h2) <;> (try split at h3) <;> omega
  · intro a b ha hb
    unfold CId.compare
    rw [ha, hb]
    simp

/-- **C44** for `NS(ComputeNodeId_compare)`: valid ids are ordered by platform, then by device. -/
theorem C44_compute_lexicographic (a b : CId) (ha : a.valid = true) (hb : b.valid = true) :
    (a.compare b = -1 ↔ a.platform < b.platform ∨ (a.platform = b.platform ∧ a.device < b.device)) ∧
      (a.compare b = 1 ↔ b.platform < a.platform ∨ (a.platform = b.platform ∧ b.device < a.device)) := by
  unfold CId.compare
  rw [ha, hb]
  simp only [Bool.and_true, if_true]
  refine ⟨?_, ?_⟩ <;> split_ifs <;> constructor <;> intro h <;> first | omega | (simp at h)

example : (⟨1, 2⟩ : CId).valid = true ∧ (⟨0, 3⟩ : CId).compare ⟨1, 2⟩ = -1 := by decide

/-- **C44 is false of the code** for `NS(ComputeNodeId_compare)`: an invalid id is below itself. -/
theorem C44_compute_order_violated : (⟨-1, -1⟩ : CId).compare ⟨-1, -1⟩ = -1 := by decide

end SixTrack
