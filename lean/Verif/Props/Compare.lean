import Verif.CompareLemmas
import Mathlib.Tactic.NormNum

/-!
# C83: comparing numbers and ranges

The functions of `type_comparison_helpers.hpp`.  For C the result says which number is larger; the C++
template of the same name says the opposite.  A NaN is not equal to itself and makes the C result
depend on nothing but the NaN.
-/

namespace SixTrack
open Cmp

/-- Arithmetic without rounding and with an overflow above `2^1024`. -/
def cmpRnd : Rnd :=
  ⟨fun q => if 2 ^ 1024 < q then .pinf else if q < -2 ^ 1024 then .ninf else .fin q⟩

/-- The numbers of that arithmetic. -/
def cmpRep (q : Rat) : Prop := -2 ^ 1024 ≤ q ∧ q ≤ 2 ^ 1024

/-- The assumptions about rounding are met by this arithmetic. -/
theorem cmpRnd_good : cmpRnd.Good cmpRep := by
  have hM : (0 : Rat) < 2 ^ 1024 := by positivity
  generalize hg : (2 : Rat) ^ 1024 = M at hM
  have hrd : ∀ q, cmpRnd.rd q = if M < q then .pinf else if q < -M then .ninf else .fin q := by
    intro q; simp only [cmpRnd, hg]
  have hrep : ∀ q, cmpRep q ↔ -M ≤ q ∧ q ≤ M := by intro q; simp only [cmpRep, hg]
  clear hg
  constructor
  · rw [hrep]; constructor <;> linarith
  · intro q h; rw [hrep] at h ⊢; constructor <;> linarith [h.1, h.2]
  · intro q; rw [hrd]; split
    · simp
    · split <;> simp
  · intro q h; rw [hrep] at h; rw [hrd, if_neg (not_lt.2 h.2), if_neg (not_lt.2 h.1)]
  · intro a b h
    rw [hrd, hrd]
    split
    · rw [if_pos (by linarith)]; rfl
    · split
      · split
        · rfl
        · split <;> rfl
      · split
        · rfl
        · rw [if_neg (by linarith)]; exact Dbl.le_fin.2 h
  · intro q
    rw [hrd, hrd]
    split
    · rw [if_neg (by linarith), if_pos (by linarith)]; rfl
    · split
      · rw [if_pos (by linarith)]; rfl
      · rw [if_neg (by linarith), if_neg (by linarith)]; rfl
  · intro a b _ _ h
    rw [hrd] at h
    split at h
    · cases h
    · split at h
      · cases h
      · injection h with h; linarith

/-- **C83** (`Type_value_comp_result`): the result is zero exactly for two equal numbers. -/
theorem C83_equal (a b : Dbl) : valueResult a b = 0 ↔ a = b ∧ a ≠ .nan :=
  valueResult_zero.trans Dbl.eq_iff

/-- **C83**: for two numbers that are not NaN the result is `+1` exactly if the left one is larger and
`-1` exactly if it is smaller. -/
theorem C83_sign (a b : Dbl) (ha : a ≠ .nan) (hb : b ≠ .nan) :
    (valueResult a b = 1 ↔ b.lt a = true) ∧ (valueResult a b = -1 ↔ a.lt b = true) ∧
    valueResult b a = -valueResult a b := by
  refine ⟨valueResult_one, valueResult_neg ha hb, ?_⟩
  rcases valueResult_cases a b with h | h | h
  · rw [h, valueResult_zero.2 (by rw [Dbl.eq_comm]; exact valueResult_zero.1 h)]; rfl
  · rw [h, (valueResult_neg hb ha).2 (valueResult_one.1 h)]
  · rw [h, valueResult_one.2 ((valueResult_neg ha hb).1 h)]; rfl

example : valueResult (.fin 3) (.fin 2) = 1 ∧ valueResult (.fin 2) .pinf = -1 := by decide

/-- **C83**: the comparison is transitive on numbers that are not NaN. -/
theorem C83_order (a b c : Dbl) (ha : a ≠ .nan) (hb : b ≠ .nan) (hc : c ≠ .nan)
    (h : valueResult a b ≤ 0) (h' : valueResult b c ≤ 0) : valueResult a c ≤ 0 := by
  have key : ∀ x y : Dbl, x ≠ .nan → y ≠ .nan → (valueResult x y ≤ 0 ↔ x.le y = true) := by
    intro x y hx hy
    constructor
    · intro h
      cases hl : x.le y with
      | true => rfl
      | false =>
        rw [Dbl.not_le hx hy] at hl
        rw [valueResult_one.2 hl] at h
        exact absurd h (by decide)
    · intro h
      rcases valueResult_cases x y with h' | h' | h'
      · rw [h']
      · rw [valueResult_one, ← Dbl.not_le hx hy, h] at h'; cases h'
      · rw [h']; decide
  exact (key a c ha hc).2 (Dbl.le_trans ((key a b ha hb).1 h) ((key b c hb hc).1 h'))

example : valueResult .ninf (.fin 0) ≤ 0 ∧ valueResult (.fin 0) (.fin 1) ≤ 0 := by decide

/-- **C83**, negation for NaN: a NaN compares as smaller than everything, and everything as smaller
than a NaN; the two results do not have opposite signs and a NaN is not equal to itself. -/
theorem C83_nan_violated (a : Dbl) : valueResult .nan a = -1 ∧ valueResult a .nan = -1 := by
  cases a <;> exact ⟨rfl, rfl⟩

/-- **C83** (`Type_value_comp_result_int64`): on integers. -/
theorem C83_int64 (a b : Int) :
    (int64Result a b = 0 ↔ a = b) ∧ (int64Result a b = 1 ↔ b < a) ∧ (int64Result a b = -1 ↔ a < b) := by
  unfold int64Result
  split
  · subst a; simp
  · split <;> simp <;> omega

/-- **C83** (the functions for ranges, whatever compares the cells): the result is zero exactly if the
right range has a cell for each cell of the left one and all of them compare as equal. -/
theorem C83_range_equal {α : Type} (cmp : α → α → Int) (l r : List α) :
    rangeResult cmp l r = .ok 0 ↔
      l.length ≤ r.length ∧
      ∀ (i : Nat) (a b : α), l[i]? = some a → r[i]? = some b → cmp a b = 0 := by
  rw [rangeResult_zero]
  constructor
  · rintro ⟨h, h'⟩
    refine ⟨h, fun i a b ha hb => h' i a b ?_ ha hb⟩
    obtain ⟨hi, _⟩ := List.getElem?_eq_some_iff.1 ha
    exact hi
  · rintro ⟨h, h'⟩
    exact ⟨h, fun i a b _ ha hb => h' i a b ha hb⟩

/-- **C83**: otherwise the result is the one for the first pair of cells that differ. -/
theorem C83_range_first {α : Type} (cmp : α → α → Int) (l r : List α) (s : Int) (hs : s ≠ 0) :
    rangeResult cmp l r = .ok s ↔
      ∃ (k : Nat) (a b : α), l[k]? = some a ∧ r[k]? = some b ∧ cmp a b = s ∧
        ∀ (i : Nat) (x y : α), i < k → l[i]? = some x → r[i]? = some y → cmp x y = 0 := by
  rw [rangeResult_nonzero cmp l r s hs]
  constructor
  · rintro ⟨k, a, b, h1, h2, h3, h4⟩; exact ⟨k, a, b, h1, h2, h4, h3⟩
  · rintro ⟨k, a, b, h1, h2, h4, h3⟩; exact ⟨k, a, b, h1, h2, h3, h4⟩

/-- **C83**: the code reads past the end of the right range exactly if that one is shorter and holds
nothing that differs. -/
theorem C83_range_past {α : Type} (cmp : α → α → Int) (l r : List α) :
    rangeResult cmp l r = .ub ↔
      r.length < l.length ∧
      ∀ (i : Nat) (a b : α), l[i]? = some a → r[i]? = some b → cmp a b = 0 := by
  rw [rangeResult_ub]
  constructor
  · rintro ⟨h, h'⟩
    refine ⟨h, fun i a b ha hb => h' i a b ?_ ha hb⟩
    obtain ⟨hi, _⟩ := List.getElem?_eq_some_iff.1 hb
    exact hi
  · rintro ⟨h, h'⟩
    exact ⟨h, fun i a b _ ha hb => h' i a b ha hb⟩

example : rangeResult valueResult [.fin 1, .fin 5] [.fin 1, .fin 7, .nan] = .ok (-1) ∧
    rangeResult valueResult [.fin 1, .fin 5] [.fin 1, .fin 5, .nan] = .ok 0 ∧
    rangeResult int64Result [4, 5] [4] = .ub := by decide

/-- **C83** (`..._with_tolerances`, only an absolute tolerance): for finite numbers the result is zero
exactly if the rounded difference is at most the tolerance, whichever number comes first. -/
theorem C83_close (R : Rnd) (rep : Rat → Prop) (g : R.Good rep) (a b t : Rat) (ht : rep t) :
    (valueResultTol R .zero (.fin t) (.fin a) (.fin b) = 0 ↔
      (R.rd (a - b)).abs.le (.fin t) = true) ∧
    (valueResultTol R .zero (.fin t) (.fin a) (.fin b) = 0 ↔
      valueResultTol R .zero (.fin t) (.fin b) (.fin a) = 0) := by
  have key : ∀ a b : Rat, valueResultTol R .zero (.fin t) (.fin a) (.fin b) = 0 ↔
      (R.rd (a - b)).abs.le (.fin t) = true := by
    intro a b
    unfold valueResultTol
    rw [isClose_abs g a b t ht]
    split
    · simp_all
    · split <;> simp_all
  exact ⟨key a b, by rw [key, key, abs_rd_swap g]⟩

example : valueResultTol cmpRnd .zero (.fin (1 / 2)) (.fin 2) (.fin (9 / 4)) = 0 := by
  unfold valueResultTol isClose closeDiff closeBound cmpRnd
  decide +kernel

/-- **C83**: with a non-negative absolute tolerance a result other than zero has the sign of the
difference, and the results for the two orders have opposite signs. -/
theorem C83_close_sign (R : Rnd) (rep : Rat → Prop) (g : R.Good rep) (a b t : Rat) (ht : rep t)
    (h0 : 0 ≤ t) :
    (valueResultTol R .zero (.fin t) (.fin a) (.fin b) = 1 → b < a) ∧
    (valueResultTol R .zero (.fin t) (.fin a) (.fin b) = -1 → a < b) ∧
    valueResultTol R .zero (.fin t) (.fin b) (.fin a) =
      -valueResultTol R .zero (.fin t) (.fin a) (.fin b) := by
  have hne : isClose R (.fin a) (.fin b) .zero (.fin t) = false → a ≠ b := by
    intro h he
    subst he
    rw [isClose_abs g a a t ht, sub_self, g.exact 0 g.zero] at h
    have : ((Dbl.fin 0).abs).le (.fin t) = true := Dbl.le_fin.2 (by simpa using h0)
    rw [this] at h; cases h
  have hsw : isClose R (.fin b) (.fin a) .zero (.fin t) = isClose R (.fin a) (.fin b) .zero (.fin t) := by
    rw [isClose_abs g b a t ht, isClose_abs g a b t ht, abs_rd_swap g]
  unfold valueResultTol
  rw [hsw]
  cases hc : isClose R (.fin a) (.fin b) .zero (.fin t) with
  | true => simp
  | false =>
    have := hne hc
    simp only [Bool.false_eq_true, if_false, more, Dbl.lt, decide_eq_true_eq]
    rcases lt_trichotomy a b with h | h | h
    · rw [if_neg (not_lt.2 h.le), if_pos h]; simp [h]
    · exact absurd h this
    · rw [if_pos h, if_neg (not_lt.2 h.le)]; simp [h]

/-- **C83**: a larger tolerance never turns equal numbers into unequal ones. -/
theorem C83_close_mono (R : Rnd) (rep : Rat → Prop) (g : R.Good rep) (a b t u : Rat) (ht : rep t)
    (hu : rep u) (htu : t ≤ u) (h : valueResultTol R .zero (.fin t) (.fin a) (.fin b) = 0) :
    valueResultTol R .zero (.fin u) (.fin a) (.fin b) = 0 := by
  rw [(C83_close R rep g a b t ht).1] at h
  rw [(C83_close R rep g a b u hu).1]
  exact Dbl.le_trans h (Dbl.le_fin.2 htu)

/-- **C83**: with both tolerances zero the comparison of finite numbers is the exact one. -/
theorem C83_close_zero (R : Rnd) (rep : Rat → Prop) (g : R.Good rep) (a b : Rat) (ha : rep a)
    (hb : rep b) :
    valueResultTol R .zero .zero (.fin a) (.fin b) = valueResult (.fin a) (.fin b) := by
  have h : isClose R (.fin a) (.fin b) .zero (.fin 0) = (Dbl.fin a).eq (.fin b) := by
    rw [isClose_abs g a b 0 g.zero]
    by_cases hab : a = b
    · subst hab
      rw [sub_self, g.exact 0 g.zero]
      simp [Dbl.abs, Dbl.eq, Dbl.le, Dbl.lt]
    · have : (Dbl.fin a).eq (.fin b) = false := by simp [Dbl.eq, hab]
      rw [this]
      cases hl : (R.rd (a - b)).abs.le (.fin 0) with
      | false => rfl
      | true => exact absurd (g.diff a b ha hb (abs_le_zero hl)) hab
  unfold valueResultTol valueResult
  show (if isClose R (.fin a) (.fin b) .zero (.fin 0) = true then (0 : Int) else _) = _
  rw [h]; rfl

example : cmpRnd.Good cmpRep ∧ cmpRep 3 ∧ (0 : Rat) ≤ 3 ∧ (3 : Rat) ≤ 4 := by
  refine ⟨cmpRnd_good, ?_, by norm_num, by norm_num⟩
  constructor
  · exact le_trans (neg_nonpos.2 (by positivity)) (by norm_num)
  · exact le_trans (by norm_num : (3 : Rat) ≤ 2 ^ 2) (pow_le_pow_right₀ (by norm_num) (by norm_num))

/-- **C83**, negation: an infinity equals itself, but not with a tolerance, however large. -/
theorem C83_infinite_violated (R : Rnd) (rel abs : Dbl) :
    valueResult .pinf .pinf = 0 ∧ valueResultTol R rel abs .pinf .pinf = -1 := by
  refine ⟨rfl, ?_⟩
  have : isClose R .pinf .pinf rel abs = false := Dbl.nan_le _
  unfold valueResultTol
  rw [this]; rfl

/-- **C83**, negation: a relative tolerance refers to the right number, so that it matters which number
comes first: 2 is close to 4 within one half, but 4 is not close to 2. -/
theorem C83_relative_violated (R : Rnd) (rep : Rat → Prop) (g : R.Good rep) (h1 : rep 1) (h2 : rep 2) :
    valueResultTol R (.fin (1 / 2)) .zero (.fin 2) (.fin 4) = 0 ∧
    valueResultTol R (.fin (1 / 2)) .zero (.fin 4) (.fin 2) = 1 := by
  have e0 : ∀ q : Rat, rep q → R.add (.fin q) .zero = .fin q := by
    intro q hq
    show R.rd (q + 0) = _
    rw [add_zero, g.exact q hq]
  have m4 : R.mul (.fin 4) (.fin (1 / 2)) = .fin 2 := by
    show R.rd (4 * (1 / 2)) = _
    rw [show (4 : Rat) * (1 / 2) = 2 by norm_num, g.exact 2 h2]
  have m2 : R.mul (.fin 2) (.fin (1 / 2)) = .fin 1 := by
    show R.rd (2 * (1 / 2)) = _
    rw [show (2 : Rat) * (1 / 2) = 1 by norm_num, g.exact 1 h1]
  have s : R.sub (.fin 4) (.fin 2) = .fin 2 := by
    rw [sub_fin, show (4 : Rat) - 2 = 2 by norm_num, g.exact 2 h2]
  have p4 : Dbl.zero.le (.fin 4) = true := by decide
  have p2 : Dbl.zero.le (.fin 2) = true := by decide
  have l24 : (Dbl.fin 2).le (.fin 4) = true := by decide
  have l42 : (Dbl.fin 4).le (.fin 2) = false := by decide
  have c1 : isClose R (.fin 2) (.fin 4) (.fin (1 / 2)) .zero = true := by
    unfold isClose closeDiff closeBound
    rw [l42, p4, if_pos rfl, if_neg Bool.false_ne_true, m4, s, e0 2 h2]; decide
  have c2 : isClose R (.fin 4) (.fin 2) (.fin (1 / 2)) .zero = false := by
    unfold isClose closeDiff closeBound
    rw [l24, if_pos rfl, p2, if_pos rfl, m2, s, e0 1 h1]; decide
  unfold valueResultTol
  rw [c1, c2]
  decide

/-- **C83** (the predicates of C and C++): for numbers that are not NaN they agree. -/
theorem C83_predicates (a b : Dbl) (ha : a ≠ .nan) (hb : b ≠ .nan) :
    Cxx.less a b = less a b ∧ Cxx.lessOrEqual a b = lessOrEqual a b ∧ Cxx.equal a b = equal a b ∧
    Cxx.notEqual a b = notEqual a b ∧ Cxx.more a b = more a b ∧
    Cxx.moreOrEqual a b = moreOrEqual a b := by
  have h1 : Cxx.more a b = more a b := by
    show (!a.le b) = b.lt a
    cases h : b.lt a with
    | true => rw [(Dbl.not_le ha hb).2 h]; rfl
    | false =>
      cases h' : a.le b with
      | true => rfl
      | false => rw [(Dbl.not_le ha hb).1 h'] at h; cases h
  have h2 : Cxx.moreOrEqual a b = moreOrEqual a b := by
    show (!a.lt b) = b.le a
    cases h : a.lt b with
    | true => rw [(Dbl.not_le hb ha).2 h]; rfl
    | false =>
      cases h' : b.le a with
      | true => rfl
      | false => rw [(Dbl.not_le hb ha).1 h'] at h; cases h
  exact ⟨rfl, rfl, rfl, rfl, h1, h2⟩

/-- **C83**, negation for NaN: for C a NaN is not larger than anything, for C++ it is larger than
everything (and everything is larger than it). -/
theorem C83_predicates_violated (a : Dbl) :
    more .nan a = false ∧ more a .nan = false ∧ moreOrEqual .nan a = false ∧
    Cxx.more .nan a = true ∧ Cxx.more a .nan = true ∧ Cxx.moreOrEqual .nan a = true := by
  cases a <;> exact ⟨rfl, rfl, rfl, rfl, rfl, rfl⟩

/-- **C83**, negation (the C++ template): it says "larger" exactly if the left number is smaller. -/
theorem C83_cxx_violated (a b : Dbl) (ha : a ≠ .nan) (hb : b ≠ .nan) :
    (Cxx.valueResult a b = Cxx.LARGER ↔ valueResult a b = -1) ∧
    (Cxx.valueResult a b = Cxx.SMALLER ↔ valueResult a b = 1) ∧
    (Cxx.valueResult a b = 0 ↔ valueResult a b = 0) := by
  have hm : Cxx.more b a = a.lt b := (C83_predicates b a hb ha).2.2.2.2.1
  have he : Cxx.equal b a = a.eq b := Dbl.eq_comm b a
  unfold Cxx.valueResult
  rw [hm, he, valueResult_neg ha hb, valueResult_one, valueResult_zero]
  rcases Dbl.tri ha hb with h | h | h
  · rw [h, Dbl.lt_eq h, Dbl.lt_asymm h]; decide
  · rw [Dbl.eq_iff.2 ⟨h, ha⟩]; subst h; rw [Dbl.lt_irrefl]; decide
  · rw [h, Dbl.lt_asymm h, Dbl.eq_comm, Dbl.lt_eq h]; decide

example : Cxx.valueResult (.fin 1) (.fin 2) = Cxx.LARGER ∧ valueResult (.fin 1) (.fin 2) = -1 := by
  decide

/-! ### Infinite tolerances and the template for C++ -/

/-- **C83**: within an infinite relative tolerance all finite numbers are close to a number other than zero,
none are within minus infinity, and none are close to zero, not even zero. -/
theorem C83_relative_infinite (R : Rnd) (rep : Rat → Prop) (g : R.Good rep) (a b t : Rat) :
    (b ≠ 0 → isClose R (.fin a) (.fin b) .pinf (.fin t) = true ∧
      (R.rd (a - b) ≠ .ninf → R.rd (b - a) ≠ .ninf →
        isClose R (.fin a) (.fin b) .ninf (.fin t) = false)) ∧
    isClose R (.fin a) (.fin 0) .pinf (.fin t) = false ∧
    isClose R (.fin a) (.fin 0) .ninf (.fin t) = false := by
  have hz : Dbl.zero.le (.fin 0) = true := by decide
  have hd : ∃ q, closeDiff R (.fin a) (.fin b) = R.rd q ∧ (q = a - b ∨ q = b - a) := by
    unfold closeDiff
    split
    · exact ⟨a - b, by rw [sub_fin], Or.inl rfl⟩
    · exact ⟨b - a, by rw [sub_fin], Or.inr rfl⟩
  refine ⟨fun hb => ⟨?_, ?_⟩, ?_, ?_⟩
  · have e : closeBound R (.fin b) .pinf (.fin t) = .pinf := by
      unfold closeBound
      by_cases h : Dbl.zero.le (.fin b) = true
      · have h0 : 0 < b := lt_of_le_of_ne (Dbl.le_fin.1 h) (Ne.symm hb)
        rw [if_pos h]; simp [Rnd.mul, Rnd.infMul, hb, h0, Rnd.add]
      · have h0 : b < 0 := lt_of_not_ge fun hh => h (Dbl.le_fin.2 hh)
        rw [if_neg h]; simp [Dbl.neg, Rnd.mul, Rnd.infMul, hb, h0, Rnd.add]
    obtain ⟨q, hq, _⟩ := hd
    unfold isClose
    rw [e, hq]
    have := g.num q
    cases h : R.rd q <;> first | exact absurd h this | rfl
  · intro h1 h2
    have e : closeBound R (.fin b) .ninf (.fin t) = .ninf := by
      unfold closeBound
      by_cases h : Dbl.zero.le (.fin b) = true
      · have h0 : 0 < b := lt_of_le_of_ne (Dbl.le_fin.1 h) (Ne.symm hb)
        rw [if_pos h]; simp [Rnd.mul, Rnd.infMul, hb, h0, Rnd.add]
      · have h0 : b < 0 := lt_of_not_ge fun hh => h (Dbl.le_fin.2 hh)
        rw [if_neg h]; simp [Dbl.neg, Rnd.mul, Rnd.infMul, hb, h0, Rnd.add]
    obtain ⟨q, hq, hc⟩ := hd
    have hn : R.rd q ≠ .ninf := by rcases hc with rfl | rfl; exacts [h1, h2]
    unfold isClose
    rw [e, hq]
    cases h : R.rd q <;> first | exact absurd h hn | rfl
  · have e : closeBound R (.fin 0) .pinf (.fin t) = .nan := by
      unfold closeBound; rw [if_pos hz]; simp [Rnd.mul, Rnd.infMul, Rnd.add]
    unfold isClose; rw [e]; exact Dbl.le_nan _
  · have e : closeBound R (.fin 0) .ninf (.fin t) = .nan := by
      unfold closeBound; rw [if_pos hz]; simp [Rnd.mul, Rnd.infMul, Rnd.add]
    unfold isClose; rw [e]; exact Dbl.le_nan _

/-- **C83**: on finite numbers and with any tolerances the C function and the C++ template agree about what is
close. -/
theorem C83_cxx_close (R : Rnd) (rep : Rat → Prop) (g : R.Good rep) (a b : Rat) (rel abs : Dbl) :
    Cxx.isClose R (.fin a) (.fin b) rel abs = isClose R (.fin a) (.fin b) rel abs := by
  have h1 : (R.sub (.fin a) (.fin b)).abs = closeDiff R (.fin a) (.fin b) := by
    have pos : ∀ q : Rat, 0 ≤ q → (R.rd q).abs = R.rd q := by
      intro q hq
      have := g.mono 0 q hq
      rw [g.exact 0 g.zero] at this
      cases h : R.rd q with
      | nan => exact absurd h (g.num q)
      | ninf => rw [h] at this; cases this
      | pinf => rfl
      | fin z => rw [h] at this; simp [Dbl.abs, Dbl.le_fin.1 this]
    unfold closeDiff
    rw [sub_fin, sub_fin]
    by_cases h : b ≤ a
    · rw [if_pos (Dbl.le_fin.2 h), pos _ (by linarith)]
    · rw [if_neg (fun hh => h (Dbl.le_fin.1 hh)), ← pos (b - a) (by linarith)]
      rw [show a - b = -(b - a) by ring, g.odd, Dbl.abs_neg]
  have h2 : (Dbl.fin b).abs = if Dbl.zero.le (.fin b) then .fin b else (Dbl.fin b).neg := by
    by_cases h : 0 ≤ b
    · rw [Dbl.zero, if_pos (Dbl.le_fin.2 h)]; simp [Dbl.abs, h]
    · rw [Dbl.zero, if_neg (fun hh => h (Dbl.le_fin.1 hh))]; simp [Dbl.abs, Dbl.neg, h]
  unfold Cxx.isClose isClose Cxx.lessOrEqual closeBound
  rw [h1, h2]; rfl

/-- **C83**, negation (the C++ template with tolerances): the relative tolerance refers to the left number, and
for numbers that are not close it says "larger" exactly if the left number is not the larger one. -/
theorem C83_cxx_tol_violated (R : Rnd) (rep : Rat → Prop) (g : R.Good rep) (a b : Rat) (rel abs : Dbl) :
    (Cxx.valueResultTol R rel abs (.fin a) (.fin b) = 0 ↔ valueResultTol R rel abs (.fin b) (.fin a) = 0) ∧
    (Cxx.valueResultTol R rel abs (.fin a) (.fin b) = Cxx.LARGER →
      valueResultTol R rel abs (.fin b) (.fin a) = 1 ∧ a < b) ∧
    (Cxx.valueResultTol R rel abs (.fin a) (.fin b) = Cxx.SMALLER →
      valueResultTol R rel abs (.fin b) (.fin a) = -1 ∧ b ≤ a) := by
  have hm : Cxx.more (.fin b) (.fin a) = more (.fin b) (.fin a) :=
    (C83_predicates (.fin b) (.fin a) (by simp) (by simp)).2.2.2.2.1
  have hlt : more (.fin b) (.fin a) = decide (a < b) := rfl
  unfold Cxx.valueResultTol valueResultTol
  rw [C83_cxx_close R rep g, hm, hlt]
  cases isClose R (.fin b) (.fin a) rel abs
  · by_cases h : a < b
    · simp [h, Cxx.LARGER, Cxx.SMALLER]
    · simp [h, Cxx.LARGER, Cxx.SMALLER, not_lt.1 h]
  · simp [Cxx.LARGER, Cxx.SMALLER]

example : cmpRnd.Good cmpRep ∧ (Cxx.valueResultTol cmpRnd (.fin (1 / 2)) .zero (.fin 2) (.fin 4)) = Cxx.LARGER ∧
    Cxx.valueResultTol cmpRnd (.fin (1 / 2)) .zero (.fin 4) (.fin 2) = 0 :=
  ⟨cmpRnd_good, by decide +kernel, by decide +kernel⟩

end SixTrack
