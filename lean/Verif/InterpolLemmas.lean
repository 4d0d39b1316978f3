import Verif.Interpol
import Mathlib.Tactic.Ring
import Mathlib.Tactic.FieldSimp
import Mathlib.Tactic.Linarith
import Mathlib.Tactic.Positivity
import Mathlib.Tactic.LinearCombination

/-! # Lemmas about the interpolation model -/

set_option linter.unusedSectionVars false

namespace SixTrack.Interpol

variable {K : Type} [Field K] [LinearOrder K] [IsStrictOrderedRing K] [FloorRing K]

/-! ## Index of the interval -/

theorem abscissaIndex_eq {x x0 dx : K} (hdx : 0 < dx) {i : Nat} (h1 : x0 + dx * i ≤ x)
    (h2 : x < x0 + dx * (i + 1)) : abscissaIndex x x0 dx = i := by
  have h0 : (i : K) ≤ (x - x0) / dx := by
    rw [le_div_iff₀ hdx]; linarith
  have h3 : (x - x0) / dx < i + 1 := by
    rw [div_lt_iff₀ hdx]; linarith
  have hi : (0 : K) ≤ i := Nat.cast_nonneg i
  unfold abscissaIndex trunc
  rw [if_pos (le_trans hi h0), Int.floor_eq_iff]
  exact ⟨by simpa using h0, by simpa using h3⟩

theorem read_ok {a : Nat → K} {n i : Nat} (h : i < n) : read a n (i : Int) = .ok (a i) := by
  unfold read
  rw [if_pos ⟨by omega, by omega⟩]
  simp

theorem read_ok' {a : Nat → K} {n i : Nat} (h : i + 1 < n) :
    read a n ((i : Int) + 1) = .ok (a (i + 1)) := by
  have := read_ok (a := a) h
  push_cast at this
  exact this

/-! ## Linear -/

theorem linLoop (y : Nat → K) (dx : K) (yp : Nat → K) (k : Nat) :
    ((List.range k).foldl (linStep y dx) (yp, y 0)).2 = y k ∧
    (∀ i < k, ((List.range k).foldl (linStep y dx) (yp, y 0)).1 i = (y (i + 1) - y i) / dx) ∧
    ∀ i, k ≤ i → ((List.range k).foldl (linStep y dx) (yp, y 0)).1 i = yp i := by
  induction k with
  | zero => simp
  | succ k ih =>
    obtain ⟨h1, h2, h3⟩ := ih
    rw [List.range_succ, List.foldl_append, List.foldl_cons, List.foldl_nil]
    generalize List.foldl (linStep y dx) (yp, y 0) (List.range k) = s at *
    refine ⟨rfl, ?_, ?_⟩
    · intro i hi
      unfold linStep
      simp only
      by_cases he : i = k
      · subst he; rw [Function.update_self, h1]
      · rw [Function.update_of_ne he]; exact h2 i (by omega)
    · intro i hi
      unfold linStep
      simp only
      rw [Function.update_of_ne (by omega)]
      exact h3 i (by omega)

/-! ## Tridiagonal elimination -/

/-- Pivots. -/
def piv (r : Rows K) : Nat → K
  | 0 => r.g 1
  | i + 1 => r.g (i + 2) - r.h (i + 1) / piv r i * r.h (i + 1)

/-- Right hand side after the forward elimination. -/
def rhs (r : Rows K) : Nat → K
  | 0 => r.dy 1
  | i + 1 => r.dy (i + 2) - rhs r i * (r.h (i + 1) / piv r i)

theorem fwd_spec (r : Rows K) (ypp : Nat → K) (k : Nat) :
    let s := (List.range' 1 k).foldl (fwdStep r)
      ⟨Function.update (fun _ => 0) 0 (r.g 1), Function.update ypp 0 (r.dy 1)⟩
    (∀ j ≤ k, s.d j = piv r j ∧ s.ypp j = rhs r j) ∧ ∀ j, k < j → s.ypp j = ypp j := by
  induction k with
  | zero =>
    refine ⟨?_, ?_⟩
    · intro j hj
      obtain rfl : j = 0 := by omega
      simp [piv, rhs]
    · intro j hj
      simp only [List.range'_zero, List.foldl_nil]
      rw [Function.update_of_ne (by omega)]
  | succ k ih =>
    obtain ⟨h1, h2⟩ := ih
    simp only at h1 h2 ⊢
    rw [List.range'_1_concat, List.foldl_append, List.foldl_cons, List.foldl_nil]
    generalize List.foldl (fwdStep r) _ (List.range' 1 k) = s at *
    have e : 1 + k - 1 = k := by omega
    refine ⟨?_, ?_⟩
    · intro j hj
      unfold fwdStep
      simp only [e]
      by_cases he : j = 1 + k
      · subst he
        rw [Function.update_self, Function.update_self, (h1 k (Nat.le_refl _)).1,
          (h1 k (Nat.le_refl _)).2, Nat.add_comm 1 k]
        exact ⟨rfl, rfl⟩
      · rw [Function.update_of_ne he, Function.update_of_ne he]
        exact h1 j (by omega)
    · intro j hj
      unfold fwdStep
      simp only
      rw [Function.update_of_ne (by omega)]
      exact h2 j (by omega)

theorem bwd_spec (r : Rows K) (d : Nat → K) (k : Nat) : ∀ (Y : Nat → K),
    let R := (List.range k).reverse.foldl (bwdStep r d) Y
    (∀ j, (k < j ∨ j = 0) → R j = Y j) ∧
    ∀ i < k, R (i + 1) = (Y i - r.h (i + 1) * R (i + 2)) / d i := by
  induction k with
  | zero => intro Y; simp
  | succ k ih =>
    intro Y
    simp only
    rw [List.range_succ, List.reverse_append, List.reverse_cons, List.reverse_nil, List.nil_append,
      List.cons_append, List.nil_append, List.foldl_cons]
    obtain ⟨h1, h2⟩ := ih (bwdStep r d Y k)
    generalize List.foldl (bwdStep r d) (bwdStep r d Y k) (List.range k).reverse = R at *
    refine ⟨?_, ?_⟩
    · intro j hj
      rw [h1 j (by omega)]
      unfold bwdStep
      rw [Function.update_of_ne (by omega)]
    · intro i hi
      by_cases he : i = k
      · subst he
        rw [h1 (i + 1) (by omega), h1 (i + 2) (by omega)]
        unfold bwdStep
        rw [Function.update_self, Function.update_of_ne (by omega)]
      · rw [h2 i (by omega)]
        unfold bwdStep
        rw [Function.update_of_ne (by omega)]

/-- The forward and backward loops solve the tridiagonal system. -/
theorem solve (r : Rows K) (ypp : Nat → K) (m : Nat) (hp : ∀ i ≤ m + 1, piv r i ≠ 0) :
    let R := backward r (forward r ypp (m + 4)) (m + 4)
    r.g 1 * R 1 + r.h 1 * R 2 = r.dy 1 ∧
    (∀ i < m, r.h (i + 1) * R (i + 1) + r.g (i + 2) * R (i + 2) + r.h (i + 2) * R (i + 3) =
      r.dy (i + 2)) ∧
    r.h (m + 1) * R (m + 1) + r.g (m + 2) * R (m + 2) = r.dy (m + 2) := by
  intro R
  have hf := fwd_spec r ypp (m + 1)
  simp only at hf
  have hb := bwd_spec r (forward r ypp (m + 4)).d (m + 1)
    (Function.update (forward r ypp (m + 4)).ypp (m + 2)
      ((forward r ypp (m + 4)).ypp (m + 1) / (forward r ypp (m + 4)).d (m + 1)))
  simp only at hb
  have hR : (List.range (m + 1)).reverse.foldl (bwdStep r (forward r ypp (m + 4)).d)
      (Function.update (forward r ypp (m + 4)).ypp (m + 2)
      ((forward r ypp (m + 4)).ypp (m + 1) / (forward r ypp (m + 4)).d (m + 1))) = R := rfl
  rw [hR] at hb
  have hF : (List.range' 1 (m + 1)).foldl (fwdStep r)
      ⟨Function.update (fun _ => 0) 0 (r.g 1), Function.update ypp 0 (r.dy 1)⟩ =
      forward r ypp (m + 4) := rfl
  rw [hF] at hf
  obtain ⟨f1, _⟩ := hf
  obtain ⟨b1, b2⟩ := hb
  have last : piv r (m + 1) * R (m + 2) = rhs r (m + 1) := by
    rw [b1 (m + 2) (by omega), Function.update_self, (f1 (m + 1) (Nat.le_refl _)).1,
      (f1 (m + 1) (Nat.le_refl _)).2]
    have := hp (m + 1) (Nat.le_refl _)
    field_simp
  have step : ∀ i ≤ m, piv r i * R (i + 1) + r.h (i + 1) * R (i + 2) = rhs r i := by
    intro i hi
    rw [b2 i (by omega), Function.update_of_ne (by omega), (f1 i (by omega)).1, (f1 i (by omega)).2]
    have := hp i (by omega)
    field_simp
    ring
  have comb : ∀ (P h Q x1 x2 b t : K), P ≠ 0 → P * x1 + h * x2 = b →
      (Q - h / P * h) * x2 = t - b * (h / P) → h * x1 + Q * x2 = t := by
    intro P h Q x1 x2 b t hP e1 e2
    subst e1
    have : (P * x1 + h * x2) * (h / P) = h * x1 + h / P * h * x2 := by field_simp
    rw [this] at e2
    linear_combination e2
  refine ⟨step 0 (by omega), ?_, ?_⟩
  · intro i hi
    have e1 := step i (by omega)
    have e2 := step (i + 1) (by omega)
    have := comb (piv r i) (r.h (i + 1)) (r.g (i + 2)) (R (i + 1)) (R (i + 2)) (rhs r i)
      (r.dy (i + 2) - r.h (i + 2) * R (i + 3)) (hp i (by omega)) e1 (by
        have e3 : piv r (i + 1) * R (i + 2) = rhs r (i + 1) - r.h (i + 2) * R (i + 3) := by
          rw [← e2]; ring
        rw [piv, rhs] at e3
        rw [e3]; ring)
    rw [this]; ring
  · have e1 := step m (Nat.le_refl _)
    exact comb (piv r m) (r.h (m + 1)) (r.g (m + 2)) (R (m + 1)) (R (m + 2)) (rhs r m)
      (r.dy (m + 2)) (hp m (by omega)) e1 (by
        have e3 := last
        rw [piv, rhs] at e3
        exact e3)

/-! ## The boundary conditions -/

/-- Boundary conditions whose row and value agree with the spline equations. -/
def Plain (b : Boundary) (p : K) : Prop :=
  b = .natural ∨ b = .clamped ∨ (b = .proportional ∧ -2 ≤ p)

theorem beginRow_h {b : Boundary} {p : K} (hb : Plain b p) (r : Rows K) :
    (beginRow b p r).h = r.h := by
  rcases hb with rfl | rfl | ⟨rfl, _⟩ <;> rfl

theorem endRow_h {b : Boundary} {p : K} {n : Nat} (hb : Plain b p) (r : Rows K) :
    (endRow b p n r).h = r.h := by
  rcases hb with rfl | rfl | ⟨rfl, _⟩ <;> rfl

theorem beginRow_other {b : Boundary} {p : K} (hb : Plain b p) (r : Rows K) {i : Nat} (hi : i ≠ 1) :
    (beginRow b p r).g i = r.g i ∧ (beginRow b p r).dy i = r.dy i := by
  rcases hb with rfl | rfl | ⟨rfl, _⟩
  · exact ⟨rfl, rfl⟩
  · exact ⟨rfl, Function.update_of_ne hi _ _⟩
  · exact ⟨Function.update_of_ne hi _ _, rfl⟩

theorem endRow_other {b : Boundary} {p : K} {n : Nat} (hb : Plain b p) (r : Rows K) {i : Nat}
    (hi : i ≠ n - 2) : (endRow b p n r).g i = r.g i ∧ (endRow b p n r).dy i = r.dy i := by
  rcases hb with rfl | rfl | ⟨rfl, _⟩
  · exact ⟨rfl, rfl⟩
  · exact ⟨rfl, Function.update_of_ne hi _ _⟩
  · exact ⟨Function.update_of_ne hi _ _, rfl⟩

/-- First row together with the value finally stored in `ypp[0]`. -/
theorem begin_row {b : Boundary} {p : K} (hb : Plain b p) (r : Rows K) (hg : r.g 1 = 2 * (r.h 0 + r.h 1))
    (Y : Nat → K) :
    (beginRow b p r).g 1 * Y 1 - (beginRow b p r).dy 1 =
      r.h 0 * beginValue b p Y 0 + 2 * (r.h 0 + r.h 1) * Y 1 - r.dy 1 := by
  rcases hb with rfl | rfl | ⟨rfl, _⟩
  · simp [beginRow, beginValue, hg]
  · simp [beginRow, beginValue, hg]; ring
  · simp [beginRow, beginValue]; ring

theorem end_row {b : Boundary} {p : K} {m : Nat} (hb : Plain b p) (r : Rows K)
    (hg : r.g (m + 2) = 2 * (r.h (m + 3) + r.h (m + 2))) (Y : Nat → K) :
    (endRow b p (m + 4) r).g (m + 2) * Y (m + 2) - (endRow b p (m + 4) r).dy (m + 2) =
      r.h (m + 2) * endValue b p (m + 4) Y (m + 3) + 2 * (r.h (m + 3) + r.h (m + 2)) * Y (m + 2) -
        r.dy (m + 2) := by
  have e : m + 4 - 2 = m + 2 := by omega
  have e1 : m + 4 - 1 = m + 3 := by omega
  rcases hb with rfl | rfl | ⟨rfl, _⟩
  · simp [endRow, endValue, hg, e1]
  · simp [endRow, endValue, hg, e, e1]; ring
  · simp [endRow, endValue, e, e1]; ring

theorem beginValue_other {b : Boundary} {p : K} (Y : Nat → K) {i : Nat} (hi : i ≠ 0) :
    beginValue b p Y i = Y i := by
  cases b <;> simp [beginValue, hi]

theorem endValue_other {b : Boundary} {p : K} {n : Nat} (Y : Nat → K) {i : Nat} (hi : i ≠ n - 1) :
    endValue b p n Y i = Y i := by
  cases b <;> simp [endValue, hi]

theorem piv_pos (r : Rows K) {dx : K} (hdx : 0 < dx) (hh : ∀ i, r.h i = dx) (m : Nat)
    (h1 : 2 * dx ≤ r.g 1) (hi : ∀ i < m, r.g (i + 2) = 4 * dx) (he : 2 * dx ≤ r.g (m + 2)) :
    ∀ i ≤ m + 1, 0 < piv r i := by
  have frac : ∀ P : K, 2 * dx ≤ P → dx / P * dx ≤ dx / 2 := by
    intro P hP
    have hP0 : 0 < P := by linarith
    rw [div_mul_eq_mul_div, div_le_div_iff₀ hP0 (by norm_num)]
    nlinarith
  have aux : ∀ i ≤ m, 2 * dx ≤ piv r i := by
    intro i
    induction i with
    | zero => intro _; exact h1
    | succ i ih =>
      intro hle
      have := frac _ (ih (by omega))
      rw [piv, hh, hi i (by omega)]
      linarith
  intro i hle
  by_cases e : i = m + 1
  · subst e
    have := frac _ (aux m (Nat.le_refl _))
    rw [piv, hh]
    linarith
  · have := aux i (by omega)
    linarith

/-- The spline equations hold for the prepared second derivatives. -/
theorem spline_equations {ypp y : Nat → K} {dx : K} {m : Nat} {bb be : Boundary} {pb pe : K}
    (hdx : 0 < dx) (hb : Plain bb pb) (he : Plain be pe) (i : Nat) (hi : i < m + 2) :
    let z := (cubicPrepare ypp y dx (m + 4) bb be pb pe).1
    dx * z i + 4 * dx * z (i + 1) + dx * z (i + 2) =
      6 * ((y (i + 2) - y (i + 1)) / dx - (y (i + 1) - y i) / dx) := by
  intro z
  set r0 := rows y dx (m + 4) with hr0
  set r := endRow be pe (m + 4) (beginRow bb pb r0) with hr
  set R := backward r (forward r ypp (m + 4)) (m + 4) with hRdef
  have hbn : bb ≠ .none := by rcases hb with rfl | rfl | ⟨rfl, _⟩ <;> simp
  have hen : be ≠ .none := by rcases he with rfl | rfl | ⟨rfl, _⟩ <;> simp
  have hz : z = endValue be pe (m + 4) (beginValue bb pb R) := by
    show (cubicPrepare ypp y dx (m + 4) bb be pb pe).1 = _
    unfold cubicPrepare
    rw [if_pos ⟨hdx, by omega⟩, if_pos ⟨hbn, hen⟩]
  have hh0 : ∀ i, r0.h i = dx := fun _ => rfl
  have hh1 : ∀ i, (beginRow bb pb r0).h i = dx := by intro i; rw [beginRow_h hb]; rfl
  have hh : ∀ i, r.h i = dx := by intro i; rw [hr, endRow_h he, hh1]
  have hg0 : ∀ i, i < m + 2 → r0.g (i + 1) = 4 * dx := by
    intro i hi
    show (if i + 1 = 0 ∨ i + 1 = m + 4 - 1 then (0 : K) else (dx + dx) * 2) = _
    rw [if_neg (by omega)]; ring
  have hd0 : ∀ i, i < m + 2 → r0.dy (i + 1) =
      6 * ((y (i + 2) - y (i + 1)) / dx - (y (i + 1) - y i) / dx) := by
    intro i hi
    show (if i + 1 = 0 ∨ i + 1 = m + 4 - 1 then (0 : K) else _) = _
    rw [if_neg (by omega)]; simp; ring
  -- rows of the modified system
  have gmid : ∀ i < m, r.g (i + 2) = 4 * dx ∧ r.dy (i + 2) = r0.dy (i + 2) := by
    intro i hi
    have e1 := endRow_other he (beginRow bb pb r0) (n := m + 4) (i := i + 2) (by omega)
    have e2 := beginRow_other hb r0 (i := i + 2) (by omega)
    exact ⟨by rw [hr, e1.1, e2.1, hg0 (i + 1) (by omega)], by rw [hr, e1.2, e2.2]⟩
  have g1 : r.g 1 = (beginRow bb pb r0).g 1 ∧ r.dy 1 = (beginRow bb pb r0).dy 1 :=
    endRow_other he (beginRow bb pb r0) (n := m + 4) (i := 1) (by omega)
  have gb : (beginRow bb pb r0).g (m + 2) = 4 * dx ∧
      (beginRow bb pb r0).dy (m + 2) = r0.dy (m + 2) := by
    have e2 := beginRow_other hb r0 (i := m + 2) (by omega)
    exact ⟨by rw [e2.1, hg0 (m + 1) (by omega)], e2.2⟩
  have g1le : 2 * dx ≤ r.g 1 := by
    rw [g1.1]
    rcases hb with rfl | rfl | ⟨rfl, hp⟩
    · show 2 * dx ≤ r0.g 1
      rw [hg0 0 (by omega)]; linarith
    · show 2 * dx ≤ r0.g 1
      rw [hg0 0 (by omega)]; linarith
    · simp only [beginRow, Function.update_self, hh0]
      nlinarith
  have gele : 2 * dx ≤ r.g (m + 2) := by
    rw [hr]
    rcases he with rfl | rfl | ⟨rfl, hp⟩
    · show 2 * dx ≤ (beginRow bb pb r0).g (m + 2)
      rw [gb.1]; linarith
    · show 2 * dx ≤ (beginRow bb pb r0).g (m + 2)
      rw [gb.1]; linarith
    · have e : m + 4 - 2 = m + 2 := by omega
      simp only [endRow, e, Function.update_self, hh1]
      nlinarith
  have hp := piv_pos r hdx hh m g1le (fun i hi => (gmid i hi).1) gele
  obtain ⟨s1, s2, s3⟩ := solve r ypp m (fun i hi => (hp i hi).ne')
  rw [← hRdef] at s1 s2 s3
  simp only [hh] at s1 s2 s3
  have z0 : z 0 = beginValue bb pb R 0 := by rw [hz, endValue_other _ (by omega)]
  have zi : ∀ j, j < m + 2 → z (j + 1) = R (j + 1) := by
    intro j hj
    rw [hz, endValue_other _ (by omega), beginValue_other _ (by omega)]
  have ze : z (m + 3) = endValue be pe (m + 4) (beginValue bb pb R) (m + 3) := by rw [hz]
  have eb := begin_row hb r0 (by rw [hg0 0 (by omega), hh0, hh0]; ring) R
  have ee := end_row he (beginRow bb pb r0) (m := m) (by rw [gb.1, hh1, hh1]; ring)
    (beginValue bb pb R)
  rw [← hr, ← ze, hh1, hh1, gb.2, beginValue_other R (by omega : m + 2 ≠ 0)] at ee
  rw [← g1.1, ← g1.2, ← z0, hh0, hh0] at eb
  rw [← hd0 i hi]
  by_cases hi0 : i = 0
  · subst hi0
    rw [zi 0 (by omega), zi 1 (by omega)]
    linear_combination (-1 : K) * eb + s1
  · obtain ⟨j, rfl⟩ : ∃ j, i = j + 1 := ⟨i - 1, by omega⟩
    by_cases hjm : j = m
    · subst hjm
      rw [zi j (by omega), zi (j + 1) (by omega)]
      linear_combination (-1 : K) * ee + s3
    · have e := s2 j (by omega)
      rw [(gmid j (by omega)).1, (gmid j (by omega)).2] at e
      rw [zi j (by omega), zi (j + 1) (by omega), zi (j + 2) (by omega)]
      linear_combination e

end SixTrack.Interpol
