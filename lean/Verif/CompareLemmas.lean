import Verif.Compare
import Mathlib.Tactic.Linarith
import Mathlib.Tactic.Ring

/-! # Lemmas about comparisons -/

namespace SixTrack
namespace Cmp
namespace Dbl

theorem eq_iff {a b : Dbl} : a.eq b = true ↔ a = b ∧ a ≠ nan := by
  cases a <;> cases b <;> simp [eq]

theorem lt_asymm {a b : Dbl} (h : a.lt b = true) : b.lt a = false := by
  cases a <;> cases b <;> simp_all [lt]; exact le_of_lt h

theorem lt_irrefl (a : Dbl) : a.lt a = false := by
  cases a <;> simp [lt]

theorem eq_comm (a b : Dbl) : a.eq b = b.eq a := by
  cases a <;> cases b <;> simp [eq, _root_.eq_comm]

theorem lt_eq {a b : Dbl} (h : a.lt b = true) : a.eq b = false := by
  cases a <;> cases b <;> simp_all [lt, eq]; exact ne_of_lt h

theorem tri {a b : Dbl} (ha : a ≠ nan) (hb : b ≠ nan) :
    a.lt b = true ∨ a = b ∨ b.lt a = true := by
  cases a <;> cases b <;> simp_all [lt]; exact lt_trichotomy _ _

theorem not_nan_of_lt {a b : Dbl} (h : a.lt b = true) : a ≠ nan ∧ b ≠ nan := by
  cases a <;> cases b <;> simp_all [lt]

theorem lt_trans {a b c : Dbl} (h : a.lt b = true) (h' : b.lt c = true) : a.lt c = true := by
  cases a <;> cases b <;> cases c <;> simp_all [lt]
  exact h.trans h'

theorem le_iff {a b : Dbl} : a.le b = true ↔ a.lt b = true ∨ (a = b ∧ a ≠ nan) := by
  rw [le, Bool.or_eq_true, eq_iff]

theorem le_fin {a b : Rat} : (fin a).le (fin b) = true ↔ a ≤ b := by
  rw [le_iff]; simp [lt, le_iff_lt_or_eq]

theorem not_le {a b : Dbl} (ha : a ≠ nan) (hb : b ≠ nan) : a.le b = false ↔ b.lt a = true := by
  constructor
  · intro h
    rcases tri ha hb with h' | h' | h'
    · rw [le_iff.2 (Or.inl h')] at h; cases h
    · rw [le_iff.2 (Or.inr ⟨h', ha⟩)] at h; cases h
    · exact h'
  · intro h
    rw [le, lt_asymm h, eq_comm, lt_eq h]; rfl

theorem le_refl {a : Dbl} (h : a ≠ nan) : a.le a = true := le_iff.2 (Or.inr ⟨rfl, h⟩)

theorem le_trans {a b c : Dbl} (h : a.le b = true) (h' : b.le c = true) : a.le c = true := by
  rw [le_iff] at h h' ⊢
  rcases h with h | ⟨h, hn⟩
  · rcases h' with h' | ⟨h', _⟩
    · exact Or.inl (lt_trans h h')
    · exact Or.inl (h' ▸ h)
  · subst h; exact h'

theorem le_nan (a : Dbl) : a.le nan = false := by cases a <;> rfl
theorem nan_le (a : Dbl) : nan.le a = false := by cases a <;> rfl

theorem neg_neg (a : Dbl) : a.neg.neg = a := by cases a <;> simp [neg]

theorem zero_le_abs {a : Dbl} (h : a ≠ nan) : zero.le a.abs = true := by
  cases a with
  | nan => exact absurd rfl h
  | ninf => rfl
  | pinf => rfl
  | fin q =>
    show (fin 0).le (fin _) = true
    rw [le_fin]; split <;> linarith

theorem abs_of_nonneg {a : Dbl} (h : zero.le a = true) : a.abs = a := by
  cases a with
  | nan => cases h
  | ninf => cases h
  | pinf => rfl
  | fin q => simp [abs, le_fin.1 h]

theorem abs_neg (a : Dbl) : a.neg.abs = a.abs := by
  cases a with
  | fin q =>
    simp only [neg, abs]
    congr 1
    split <;> split <;> linarith
  | _ => rfl

end Dbl

theorem valueResult_zero {a b : Dbl} : valueResult a b = 0 ↔ a.eq b = true := by
  unfold valueResult equal more
  split
  · simp_all
  · split <;> simp_all

theorem valueResult_one {a b : Dbl} : valueResult a b = 1 ↔ b.lt a = true := by
  unfold valueResult equal more
  split
  · rename_i h
    have : b.lt a = false := by
      cases hb : b.lt a with
      | true => rw [Dbl.eq_comm, Dbl.lt_eq hb] at h; cases h
      | false => rfl
    simp [this]
  · split <;> simp_all

theorem valueResult_cases (a b : Dbl) :
    valueResult a b = 0 ∨ valueResult a b = 1 ∨ valueResult a b = -1 := by
  unfold valueResult; split
  · simp
  · split <;> simp

theorem valueResult_neg {a b : Dbl} (ha : a ≠ .nan) (hb : b ≠ .nan) :
    valueResult a b = -1 ↔ a.lt b = true := by
  constructor
  · intro h
    rcases Dbl.tri ha hb with h' | h' | h'
    · exact h'
    · rw [valueResult_zero.2 (Dbl.eq_iff.2 ⟨h', ha⟩)] at h; cases h
    · rw [valueResult_one.2 h'] at h; cases h
  · intro h
    rcases valueResult_cases a b with h' | h' | h'
    · rw [valueResult_zero, Dbl.lt_eq h] at h'; cases h'
    · rw [valueResult_one, Dbl.lt_asymm h] at h'; cases h'
    · exact h'

/-! ### Ranges -/

section
variable {α : Type} (cmp : α → α → Int)

/-- The first `n` pairs of cells compare as equal. -/
def SameTo (l r : List α) (n : Nat) : Prop :=
  ∀ (i : Nat) (a b : α), i < n → l[i]? = some a → r[i]? = some b → cmp a b = 0

theorem sameTo_cons {a b : α} {l r : List α} {n : Nat} :
    SameTo cmp (a :: l) (b :: r) (n + 1) ↔ cmp a b = 0 ∧ SameTo cmp l r n := by
  constructor
  · intro h
    refine ⟨h 0 a b (Nat.succ_pos _) rfl rfl, fun i x y hi hx hy => ?_⟩
    exact h (i + 1) x y (Nat.succ_lt_succ hi) (by simpa using hx) (by simpa using hy)
  · intro ⟨h0, h⟩ i x y hi hx hy
    cases i with
    | zero => cases hx; cases hy; exact h0
    | succ i => exact h i x y (Nat.lt_of_succ_lt_succ hi) (by simpa using hx) (by simpa using hy)

theorem rangeResult_zero : ∀ (l r : List α),
    rangeResult cmp l r = .ok 0 ↔ l.length ≤ r.length ∧ SameTo cmp l r l.length := by
  intro l
  induction l with
  | nil =>
    intro r
    simp [rangeResult, SameTo]
  | cons a l ih =>
    intro r
    cases r with
    | nil => simp [rangeResult]
    | cons b r =>
      rw [rangeResult]
      simp only [List.length_cons, Nat.add_le_add_iff_right]
      rw [sameTo_cons]
      split
      · rename_i h
        rw [ih r]; simp [h]
      · rename_i h
        simp [h]

theorem rangeResult_nonzero : ∀ (l r : List α) (s : Int), s ≠ 0 →
    (rangeResult cmp l r = .ok s ↔ ∃ (k : Nat) (a b : α), l[k]? = some a ∧ r[k]? = some b ∧
      SameTo cmp l r k ∧ cmp a b = s) := by
  intro l
  induction l with
  | nil =>
    intro r s hs
    constructor
    · intro h; cases h; exact absurd rfl hs
    · rintro ⟨k, a, b, h, _⟩; simp at h
  | cons x l ih =>
    intro r s hs
    cases r with
    | nil =>
      constructor
      · intro h; cases h
      · rintro ⟨k, a, b, _, h, _⟩; simp at h
    | cons y r =>
      rw [rangeResult]
      split
      · rename_i h
        rw [ih r s hs]
        constructor
        · rintro ⟨k, a, b, ha, hb, hS, he⟩
          exact ⟨k + 1, a, b, by simpa using ha, by simpa using hb, (sameTo_cons cmp).2 ⟨h, hS⟩, he⟩
        · rintro ⟨k, a, b, ha, hb, hS, he⟩
          cases k with
          | zero => cases ha; cases hb; exact absurd (he ▸ h) hs
          | succ k => exact ⟨k, a, b, by simpa using ha, by simpa using hb, ((sameTo_cons cmp).1 hS).2, he⟩
      · rename_i h
        constructor
        · intro he
          refine ⟨0, x, y, rfl, rfl, fun i _ _ hi => absurd hi (Nat.not_lt_zero _), (Res.ok_inj _ _).1 he⟩
        · rintro ⟨k, a, b, ha, hb, hS, he⟩
          cases k with
          | zero => cases ha; cases hb; rw [he]
          | succ k => exact absurd ((sameTo_cons cmp).1 hS).1 h

theorem rangeResult_ub : ∀ (l r : List α),
    rangeResult cmp l r = .ub ↔ r.length < l.length ∧ SameTo cmp l r r.length := by
  intro l
  induction l with
  | nil => intro r; simp [rangeResult]
  | cons x l ih =>
    intro r
    cases r with
    | nil =>
      simp only [rangeResult, true_iff]
      exact ⟨by simp, fun i _ _ hi => absurd hi (Nat.not_lt_zero _)⟩
    | cons y r =>
      rw [rangeResult]
      simp only [List.length_cons, Nat.add_lt_add_iff_right]
      rw [sameTo_cons]
      split
      · rename_i h
        rw [ih r]; simp [h]
      · rename_i h
        simp [h]

end

/-! ### Closeness -/

theorem notNan_add {R : Rnd} (hn : ∀ q, R.rd q ≠ .nan) (a b : Rat) :
    R.add (.fin a) (.fin b) ≠ .nan := hn _

theorem sub_fin (R : Rnd) (a b : Rat) : R.sub (.fin a) (.fin b) = R.rd (a - b) := by
  show R.rd (a + -b) = _
  rw [sub_eq_add_neg]

theorem rd_nonneg {R : Rnd} {rep : Rat → Prop} (g : R.Good rep) {q : Rat} (h : 0 ≤ q) :
    Dbl.zero.le (R.rd q) = true := by
  have := g.mono 0 q h
  rwa [g.exact 0 g.zero] at this

theorem rd_swap {R : Rnd} {rep : Rat → Prop} (g : R.Good rep) (a b : Rat) :
    R.rd (b - a) = (R.rd (a - b)).neg := by
  rw [← g.odd]; congr 1; ring

/-- For finite numbers the difference that the code forms is the absolute value of the difference. -/
theorem absDiff {R : Rnd} {rep : Rat → Prop} (g : R.Good rep) (a b : Rat) :
    (if (Dbl.fin b).le (.fin a) then R.sub (.fin a) (.fin b) else R.sub (.fin b) (.fin a)) =
      (R.rd (a - b)).abs := by
  split
  · rename_i h
    rw [sub_fin]
    exact (Dbl.abs_of_nonneg (rd_nonneg g (sub_nonneg.2 (Dbl.le_fin.1 h)))).symm
  · rename_i h
    have h' : a ≤ b := le_of_lt (not_le.1 (fun hc => h (Dbl.le_fin.2 hc)))
    rw [sub_fin, ← Dbl.abs_neg, ← rd_swap g]
    exact (Dbl.abs_of_nonneg (rd_nonneg g (sub_nonneg.2 h'))).symm

/-- With no relative tolerance the bound is the absolute tolerance. -/
theorem bound_abs {R : Rnd} {rep : Rat → Prop} (g : R.Good rep) (b t : Rat) (ht : rep t) :
    R.add (R.mul (if Dbl.zero.le (.fin b) then .fin b else (Dbl.fin b).neg) .zero) (.fin t) = .fin t := by
  have h : ∀ c : Rat, R.add (R.mul (.fin c) .zero) (.fin t) = .fin t := by
    intro c
    show R.add (R.rd (c * 0)) (.fin t) = _
    rw [mul_zero, g.exact 0 g.zero]
    show R.rd (0 + t) = _
    rw [zero_add, g.exact t ht]
  split
  · exact h b
  · exact h (-b)

theorem isClose_abs {R : Rnd} {rep : Rat → Prop} (g : R.Good rep) (a b t : Rat) (ht : rep t) :
    isClose R (.fin a) (.fin b) .zero (.fin t) = (R.rd (a - b)).abs.le (.fin t) := by
  unfold isClose closeDiff closeBound
  rw [absDiff g, bound_abs g b t ht]

theorem abs_rd_swap {R : Rnd} {rep : Rat → Prop} (g : R.Good rep) (a b : Rat) :
    (R.rd (b - a)).abs = (R.rd (a - b)).abs := by
  rw [rd_swap g, Dbl.abs_neg]

theorem abs_le_zero {d : Dbl} (h : d.abs.le .zero = true) : d = .fin 0 := by
  cases d with
  | fin q =>
    have := Dbl.le_fin.1 h
    congr 1
    split at this <;> linarith
  | _ => cases h

end Cmp
end SixTrack
