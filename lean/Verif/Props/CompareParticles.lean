import Verif.CompareParticlesLemmas
import Verif.Props.Compare

/-!
# C84: comparing particles

What the functions say by which the tests decide whether two sets of particles agree: the exact comparison
of all attributes, the comparison with a threshold, the largest difference of each attribute.
-/

namespace SixTrack
open Cmp TrackOpt

/-- Particles whose arrays all exist. -/
def cmpSet {V : Type} (n : Nat) (A : RealField → List V) (B : IndexField → List Int) : PSet V :=
  ⟨n, fun f => some (A f), fun f => some (B f)⟩

theorem cmpSet_ints {V : Type} {n : Nat} (hn : 0 < n) (A C : RealField → List V)
    (B D : IndexField → List Int) (hB : ∀ f, n ≤ (B f).length) (hD : ∀ f, n ≤ (D f).length)
    (wB : ∀ f, ∀ z ∈ B f, I64 z) (wD : ∀ f, ∀ z ∈ D f, I64 z) :
    (compareInt (some (cmpSet n A B)) (some (cmpSet n C D)) = .ok 0 ↔
      ∀ f, ∀ i < n, (B f)[i]? = (D f)[i]?) ∧
    ∃ c, compareInt (some (cmpSet n A B)) (some (cmpSet n C D)) = .ok c := by
  unfold compareInt
  rw [sets_ok (cmpSet n A B) (cmpSet n C D) rfl]
  constructor
  · rw [chain_zero]
    have key : ∀ f, seqExact (some ((B f).map wordOf)) (some ((D f).map wordOf)) n = .ok 0 ↔
        ∀ i < n, (B f)[i]? = (D f)[i]? := by
      intro f
      rw [seqExact_zero _ _ n (by omega) (by simpa using hB f) (by simpa using hD f)
        (by intro w hw; obtain ⟨z, _, rfl⟩ := List.mem_map.1 hw; exact wordOf_lt z)
        (by intro w hw; obtain ⟨z, _, rfl⟩ := List.mem_map.1 hw; exact wordOf_lt z),
        ← take_eq_iff, ← List.map_take, ← List.map_take]
      constructor
      · exact map_wordOf_inj (fun z hz => wB f z (List.mem_of_mem_take hz))
          (fun z hz => wD f z (List.mem_of_mem_take hz))
      · intro h; rw [h]
    exact ⟨fun h f => (key f).1 (h f (indMem f)), fun h f _ => (key f).2 (h f)⟩
  · refine chain_ok _ _ fun f _ => ⟨_, seqExact_ok _ _ n (by omega) ?_ ?_⟩
    · simpa using hB f
    · simpa using hD f

theorem cmpSet_reals {n : Nat} (hn : 0 < n) (A C : RealField → List Nat)
    (B D : IndexField → List Int) (hA : ∀ f, n ≤ (A f).length) (hC : ∀ f, n ≤ (C f).length)
    (wA : ∀ f, ∀ w ∈ A f, w < 2 ^ 64) (wC : ∀ f, ∀ w ∈ C f, w < 2 ^ 64) :
    (compareReal (some (cmpSet n A B)) (some (cmpSet n C D)) = .ok 0 ↔
      ∀ f, ∀ i < n, (A f)[i]? = (C f)[i]?) ∧
    ∃ c, compareReal (some (cmpSet n A B)) (some (cmpSet n C D)) = .ok c := by
  unfold compareReal
  rw [sets_ok (cmpSet n A B) (cmpSet n C D) rfl]
  constructor
  · rw [chain_zero]
    have key : ∀ f, seqExact (some (A f)) (some (C f)) n = .ok 0 ↔ ∀ i < n, (A f)[i]? = (C f)[i]? := by
      intro f
      rw [seqExact_zero _ _ n (by omega) (hA f) (hC f) (wA f) (wC f), ← take_eq_iff]
    exact ⟨fun h f => (key f).1 (h f (realMem f)), fun h f _ => (key f).2 (h f)⟩
  · exact chain_ok _ _ fun f _ => ⟨_, seqExact_ok _ _ n (by omega) (hA f) (hC f)⟩

/-- The exact comparison of two sets with the same number of particles is defined, and its result is zero
if and only if all 21 attributes of all particles have the same bytes. -/
theorem C84_exact_partial {n : Nat} (hn : 0 < n) (A C : RealField → List Nat)
    (B D : IndexField → List Int) (hA : ∀ f, n ≤ (A f).length) (hC : ∀ f, n ≤ (C f).length)
    (hB : ∀ f, n ≤ (B f).length) (hD : ∀ f, n ≤ (D f).length)
    (wA : ∀ f, ∀ w ∈ A f, w < 2 ^ 64) (wC : ∀ f, ∀ w ∈ C f, w < 2 ^ 64)
    (wB : ∀ f, ∀ z ∈ B f, I64 z) (wD : ∀ f, ∀ z ∈ D f, I64 z) :
    (compareSets (some (cmpSet n A B)) (some (cmpSet n C D)) = .ok 0 ↔
      (∀ f, ∀ i < n, (A f)[i]? = (C f)[i]?) ∧ ∀ f, ∀ i < n, (B f)[i]? = (D f)[i]?) ∧
    ∃ c, compareSets (some (cmpSet n A B)) (some (cmpSet n C D)) = .ok c := by
  obtain ⟨hr, c, hc⟩ := cmpSet_reals hn A C B D hA hC wA wC
  obtain ⟨hi, e, he⟩ := cmpSet_ints hn A C B D hB hD wB wD
  unfold compareSets
  rw [hc] at hr ⊢
  rw [Res.ok_inj] at hr
  rw [Res.ok_bind]
  by_cases h0 : c = 0
  · rw [if_pos h0, hi]
    exact ⟨⟨fun h => ⟨hr.1 h0, h⟩, fun h => h.2⟩, e, he⟩
  · rw [if_neg h0]
    refine ⟨⟨fun h => absurd ((Res.ok_inj _ _).1 h) h0, fun h => absurd (hr.2 h.1) h0⟩, c, rfl⟩

example : (∀ f : RealField, 2 ≤ ((fun _ => [3, 4]) f : List Nat).length) ∧
    (∀ f : IndexField, ∀ z ∈ ((fun _ => [-1, 7]) f : List Int), I64 z) ∧
    compareSets (some (cmpSet 2 (fun _ => [3, 4]) fun _ => [-1, 7]))
      (some (cmpSet 2 (fun _ => [3, 4, 5]) fun _ => [-1, 7])) = .ok 0 ∧
    compareSets (some (cmpSet 2 (fun _ => [3, 4]) fun _ => [-1, 7]))
      (some (cmpSet 2 (fun _ => [3, 4]) fun _ => [-1, 8])) = .ok (-1) := by
  refine ⟨fun _ => Nat.le_refl 2, ?_, by decide +kernel, by decide +kernel⟩
  intro _ z hz
  simp only [List.mem_cons, List.not_mem_nil, or_false] at hz
  unfold I64
  rcases hz with rfl | rfl <;> decide

/-- The sign does not say which number is larger: 256 is less than 1. -/
theorem C84_order_violated :
    compareSets (some (cmpSet 1 (fun _ => [0]) fun _ => [256]))
      (some (cmpSet 1 (fun _ => [0]) fun _ => [1])) = .ok (-1) := by decide +kernel

/-- Zero and minus zero are equal as numbers, but not for the exact comparison. -/
theorem C84_minus_zero_violated :
    (dec (2 ^ 63)).eq (dec 0) = true ∧
    compareSets (some (cmpSet 1 (fun _ => [2 ^ 63]) fun _ => [1]))
      (some (cmpSet 1 (fun _ => [0]) fun _ => [1])) = .ok 1 := by
  constructor <;> decide +kernel

/-- A NaN is not equal to itself as a number, but it is for the exact comparison. -/
theorem C84_nan_exact_violated :
    (dec (2047 * 2 ^ 52 + 1)).eq (dec (2047 * 2 ^ 52 + 1)) = false ∧
    compareSets (some (cmpSet 1 (fun _ => [2047 * 2 ^ 52 + 1]) fun _ => [1]))
      (some (cmpSet 1 (fun _ => [2047 * 2 ^ 52 + 1]) fun _ => [1])) = .ok 0 := by
  constructor <;> decide +kernel

/-- Two sets without particles are never equal, not even a set and itself, while two buffers without sets
are. -/
theorem C84_empty_violated (A C : RealField → List Nat) (B D : IndexField → List Int) :
    compareSets (some (cmpSet 0 A B)) (some (cmpSet 0 C D)) = .ok (-1) ∧
    bufCompare compareSets (some [some (cmpSet 0 A B)]) (some [some (cmpSet 0 A B)]) = .ok (-1) ∧
    bufCompare compareSets (some []) (some []) = .ok 0 := by
  refine ⟨rfl, rfl, rfl⟩

/-- Sets with different numbers of particles are not equal, whatever they hold; the same is true of
missing sets, even if both are missing. -/
theorem C84_structure (p q : PSet Nat) (h : p.num ≠ q.num) :
    compareSets (some p) (some q) = .ok (-1) ∧ compareSets (some p) none = .ok 1 ∧
    compareSets none (some p) = .ok (-1) ∧ compareSets none none = .ok (-1) := by
  refine ⟨?_, rfl, rfl, rfl⟩
  have : compareReal (some p) (some q) = .ok (-1) := by simp [compareReal, withSets, h]
  unfold compareSets
  rw [this, Res.ok_bind]; rfl

example : (cmpSet 1 (fun _ => [0]) fun _ => [1] : PSet Nat).num ≠
    (cmpSet 2 (fun _ => [0, 0]) fun _ => [1, 1] : PSet Nat).num := by decide

/-- Buffers are equal if and only if they have the same number of sets and the sets at the same place are
equal. -/
theorem C84_buffers {V : Type} (cmp : Option (PSet V) → Option (PSet V) → Res Int)
    (l r : List (Option (PSet V))) :
    bufCompare cmp (some l) (some r) = .ok 0 ↔
      l.length = r.length ∧
        ∀ (i : Nat) (a b : Option (PSet V)), l[i]? = some a → r[i]? = some b → cmp a b = .ok 0 := by
  have key : ∀ (l r : List (Option (PSet V))), bufLoop cmp l r = .ok 0 ↔
      ∀ (i : Nat) (a b : Option (PSet V)), l[i]? = some a → r[i]? = some b → cmp a b = .ok 0 := by
    intro l
    induction l with
    | nil => intro r; simp [bufLoop]
    | cons x l ih =>
      intro r
      cases r with
      | nil => simp [bufLoop]
      | cons y r =>
        rw [bufLoop]
        cases hc : cmp x y with
        | ub =>
          rw [Res.ub_bind]
          constructor
          · intro h; cases h
          · intro h; have := h 0 x y rfl rfl; rw [hc] at this; cases this
        | ok c =>
          rw [Res.ok_bind]
          by_cases h0 : c = 0
          · rw [if_pos h0, ih r]
            constructor
            · intro h i a b ha hb
              cases i with
              | zero => cases ha; cases hb; rw [hc, h0]
              | succ i => exact h i a b (by simpa using ha) (by simpa using hb)
            · intro h i a b ha hb
              exact h (i + 1) a b (by simpa using ha) (by simpa using hb)
          · rw [if_neg h0]
            constructor
            · intro h; exact absurd ((Res.ok_inj _ _).1 h) h0
            · intro h
              have := h 0 x y rfl rfl
              rw [hc] at this
              exact absurd ((Res.ok_inj _ _).1 this) h0
  unfold bufCompare
  by_cases h : l.length = r.length
  · simp only [h, if_true, true_and]
    exact key l r
  · simp only [h, if_false, false_and, iff_false]
    intro hc; cases hc

example : bufCompare compareSets (some [some (cmpSet 1 (fun _ => [3]) fun _ => [4])])
    (some [some (cmpSet 1 (fun _ => [3]) fun _ => [4])]) = .ok 0 := by decide +kernel

/-! ### Comparison with a threshold -/

theorem cmpSet_reals_thr (R : Rnd) (t : Dbl) {n : Nat} (A C : RealField → List Dbl)
    (B D : IndexField → List Int) (hA : ∀ f, n ≤ (A f).length) (hC : ∀ f, n ≤ (C f).length) :
    (compareRealThr R t (some (cmpSet n A B)) (some (cmpSet n C D)) = .ok 0 ↔
      ∀ (f : RealField) (i : Nat) (a b : Dbl), i < n → (A f)[i]? = some a → (C f)[i]? = some b →
        cellOut R t a b = false) ∧
    ∃ c, compareRealThr R t (some (cmpSet n A B)) (some (cmpSet n C D)) = .ok c := by
  unfold compareRealThr
  rw [sets_ok (cmpSet n A B) (cmpSet n C D) rfl]
  have hseq : ∀ f, (do
      let c ← seqThr R t ((cmpSet n A B).real f) ((cmpSet n C D).real f) n
      return c.1 : Res Int) = .ok (thrLoop R t ((A f).take n) ((C f).take n) 0).1 := by
    intro f
    show (do
      let c ← seqThr R t (some (A f)) (some (C f)) n
      return c.1 : Res Int) = _
    rw [seqThr_ok R t _ _ n (hA f) (hC f), Res.ok_bind]; rfl
  constructor
  · rw [chain_zero]
    have key : ∀ f, (do
        let c ← seqThr R t ((cmpSet n A B).real f) ((cmpSet n C D).real f) n
        return c.1 : Res Int) = .ok 0 ↔
        ∀ (i : Nat) (a b : Dbl), i < n → (A f)[i]? = some a → (C f)[i]? = some b →
          cellOut R t a b = false := by
      intro f
      rw [hseq f, Res.ok_inj, thrLoop_zero]
      constructor
      · intro h i a b hi ha hb
        refine h i a b ?_ ?_
        · rw [List.getElem?_take, if_pos hi]; exact ha
        · rw [List.getElem?_take, if_pos hi]; exact hb
      · intro h i a b ha hb
        rw [List.getElem?_take] at ha hb
        by_cases hi : i < n
        · rw [if_pos hi] at ha hb; exact h i a b hi ha hb
        · rw [if_neg hi] at ha; cases ha
    exact ⟨fun h f => (key f).1 (h f (realMem f)), fun h f _ => (key f).2 (h f)⟩
  · exact chain_ok _ _ fun f _ => ⟨_, hseq f⟩

/-- The comparison with a threshold is defined, and its result is zero if and only if no difference of real
attributes is a number above the threshold, and the integers are the same. -/
theorem C84_threshold_partial (R : Rnd) (t : Dbl) (ht : t ≠ .nan) {n : Nat} (hn : 0 < n)
    (A C : RealField → List Dbl) (B D : IndexField → List Int) (hA : ∀ f, n ≤ (A f).length)
    (hC : ∀ f, n ≤ (C f).length) (hB : ∀ f, n ≤ (B f).length) (hD : ∀ f, n ≤ (D f).length)
    (wB : ∀ f, ∀ z ∈ B f, I64 z) (wD : ∀ f, ∀ z ∈ D f, I64 z) :
    (compareSetsThr R t (some (cmpSet n A B)) (some (cmpSet n C D)) = .ok 0 ↔
      (∀ (f : RealField) (i : Nat) (a b : Dbl), i < n → (A f)[i]? = some a → (C f)[i]? = some b →
        R.sub a b = .nan ∨ (R.sub a b).abs.le t = true) ∧
      ∀ f, ∀ i < n, (B f)[i]? = (D f)[i]?) ∧
    ∃ c, compareSetsThr R t (some (cmpSet n A B)) (some (cmpSet n C D)) = .ok c := by
  obtain ⟨hr, c, hc⟩ := cmpSet_reals_thr R t A C B D hA hC
  obtain ⟨hi, e, he⟩ := cmpSet_ints hn A C B D hB hD wB wD
  simp only [cellOut_iff R t _ _ ht] at hr
  unfold compareSetsThr
  rw [hc] at hr ⊢
  rw [Res.ok_inj] at hr
  rw [Res.ok_bind]
  by_cases h0 : c = 0
  · rw [if_pos h0, hi]
    exact ⟨⟨fun h => ⟨hr.1 h0, h⟩, fun h => h.2⟩, e, he⟩
  · rw [if_neg h0]
    refine ⟨⟨fun h => absurd ((Res.ok_inj _ _).1 h) h0, fun h => absurd (hr.2 h.1) h0⟩, c, rfl⟩

example : (Dbl.fin 1) ≠ .nan ∧
    (∀ f : RealField, 1 ≤ ((fun _ => [Dbl.fin 3]) f).length) ∧
    (∀ f : IndexField, ∀ z ∈ ((fun _ => [5]) f : List Int), I64 z) := by
  refine ⟨by simp, fun _ => Nat.le_refl 1, ?_⟩
  intro _ z hz
  rw [List.mem_singleton.1 hz]; unfold I64; decide

/-- Particles that agree exactly agree within every threshold that is not negative. -/
theorem C84_exact_threshold {R : Rnd} {rep : Rat → Prop} (g : R.Good rep) (t : Dbl)
    (ht : Dbl.zero.le t = true) {n : Nat} (hn : 0 < n) (A C : RealField → List Nat)
    (B D : IndexField → List Int) (hA : ∀ f, n ≤ (A f).length) (hC : ∀ f, n ≤ (C f).length)
    (hB : ∀ f, n ≤ (B f).length) (hD : ∀ f, n ≤ (D f).length)
    (wA : ∀ f, ∀ w ∈ A f, w < 2 ^ 64) (wC : ∀ f, ∀ w ∈ C f, w < 2 ^ 64)
    (wB : ∀ f, ∀ z ∈ B f, I64 z) (wD : ∀ f, ∀ z ∈ D f, I64 z)
    (h : compareSets (some (cmpSet n A B)) (some (cmpSet n C D)) = .ok 0) :
    compareSetsThr R t (some (cmpSet n A B).dec) (some (cmpSet n C D).dec) = .ok 0 := by
  obtain ⟨h1, h2⟩ := (C84_exact_partial hn A C B D hA hC hB hD wA wC wB wD).1.1 h
  have htn : t ≠ .nan := by rintro rfl; rw [Dbl.le_nan] at ht; cases ht
  refine (C84_threshold_partial R t htn hn (fun f => (A f).map dec) (fun f => (C f).map dec) B D
    (fun f => by simpa using hA f) (fun f => by simpa using hC f) hB hD wB wD).1.2 ⟨?_, h2⟩
  intro f i a b hi ha hb
  rw [List.getElem?_map] at ha hb
  rw [h1 f i hi] at ha
  have hab : a = b := by rw [ha] at hb; exact Option.some.inj hb
  subst hab
  rcases sub_self_cases g a with hs | hs
  · exact Or.inl hs
  · right; rw [hs]; exact ht

example : cmpRnd.Good cmpRep ∧ Dbl.zero.le (.fin 0) = true ∧
    compareSets (some (cmpSet 1 (fun _ => [2 ^ 62]) fun _ => [3]))
      (some (cmpSet 1 (fun _ => [2 ^ 62]) fun _ => [3])) = .ok 0 :=
  ⟨cmpRnd_good, by decide, by decide +kernel⟩

/-- What agrees within a threshold agrees within every larger one. -/
theorem C84_threshold_monotone (R : Rnd) (t u : Dbl) (htu : t.le u = true) {n : Nat} (hn : 0 < n)
    (A C : RealField → List Dbl) (B D : IndexField → List Int) (hA : ∀ f, n ≤ (A f).length)
    (hC : ∀ f, n ≤ (C f).length) (hB : ∀ f, n ≤ (B f).length) (hD : ∀ f, n ≤ (D f).length)
    (wB : ∀ f, ∀ z ∈ B f, I64 z) (wD : ∀ f, ∀ z ∈ D f, I64 z)
    (h : compareSetsThr R t (some (cmpSet n A B)) (some (cmpSet n C D)) = .ok 0) :
    compareSetsThr R u (some (cmpSet n A B)) (some (cmpSet n C D)) = .ok 0 := by
  have ht : t ≠ .nan := by rintro rfl; rw [Dbl.nan_le] at htu; cases htu
  have hu : u ≠ .nan := by rintro rfl; rw [Dbl.le_nan] at htu; cases htu
  obtain ⟨h1, h2⟩ := (C84_threshold_partial R t ht hn A C B D hA hC hB hD wB wD).1.1 h
  refine (C84_threshold_partial R u hu hn A C B D hA hC hB hD wB wD).1.2 ⟨?_, h2⟩
  intro f i a b hi ha hb
  rcases h1 f i a b hi ha hb with h | h
  · exact Or.inl h
  · exact Or.inr (Dbl.le_trans h htu)

example : (Dbl.fin 1).le (.fin 2) = true := by decide +kernel

/-- Agreement within a threshold does not depend on the order of the two sets. -/
theorem C84_threshold_symmetric {R : Rnd} {rep : Rat → Prop} (g : R.Good rep) (t : Dbl) (ht : t ≠ .nan)
    {n : Nat} (hn : 0 < n) (A C : RealField → List Dbl) (B D : IndexField → List Int)
    (hA : ∀ f, n ≤ (A f).length) (hC : ∀ f, n ≤ (C f).length) (hB : ∀ f, n ≤ (B f).length)
    (hD : ∀ f, n ≤ (D f).length) (wB : ∀ f, ∀ z ∈ B f, I64 z) (wD : ∀ f, ∀ z ∈ D f, I64 z)
    (h : compareSetsThr R t (some (cmpSet n A B)) (some (cmpSet n C D)) = .ok 0) :
    compareSetsThr R t (some (cmpSet n C D)) (some (cmpSet n A B)) = .ok 0 := by
  obtain ⟨h1, h2⟩ := (C84_threshold_partial R t ht hn A C B D hA hC hB hD wB wD).1.1 h
  refine (C84_threshold_partial R t ht hn C A D B hC hA hD hB wD wB).1.2
    ⟨?_, fun f i hi => (h2 f i hi).symm⟩
  intro f i a b hi ha hb
  rw [sub_swap g b a, Dbl.abs_neg]
  rcases h1 f i b a hi hb ha with h | h
  · left; rw [h]; rfl
  · exact Or.inr h

example : cmpRnd.Good cmpRep ∧ (Dbl.fin 1) ≠ .nan := ⟨cmpRnd_good, by simp⟩

/-- The index that is stored is that of the first cell that is out of bounds. -/
theorem C84_first_index (R : Rnd) (t : Dbl) (ht : t ≠ .nan) (l r : List Dbl) (n j : Nat)
    (hl : n ≤ l.length) (hr : n ≤ r.length) :
    (∃ c, seqThr R t (some l) (some r) n = .ok (c, some j)) ↔
      (j < n ∧ (∃ a b : Dbl, l[j]? = some a ∧ r[j]? = some b ∧ R.sub a b ≠ .nan ∧
          (R.sub a b).abs.le t = false) ∧
        ∀ (m : Nat) (x y : Dbl), m < j → l[m]? = some x → r[m]? = some y →
          R.sub x y = .nan ∨ (R.sub x y).abs.le t = true) := by
  rw [seqThr_ok R t l r n hl hr]
  have hf := thrLoop_first R t (l.take n) (r.take n) 0 j
  have hout : ∀ a b, cellOut R t a b = true ↔ R.sub a b ≠ .nan ∧ (R.sub a b).abs.le t = false := by
    intro a b
    have := cellOut_iff R t a b ht
    rw [← Bool.not_eq_false, this]
    simp
  constructor
  · rintro ⟨c, h⟩
    have h' : (thrLoop R t (l.take n) (r.take n) 0).2 = some j := by rw [(Res.ok_inj _ _).1 h]
    obtain ⟨k, a, b, hj, ha, hb, ho, hm⟩ := hf.1 h'
    have hjk : j = k := by omega
    subst hjk
    rw [List.getElem?_take] at ha hb
    by_cases hi : j < n
    · rw [if_pos hi] at ha hb
      refine ⟨hi, ⟨a, b, ha, hb, (hout a b).1 ho⟩, fun m x y hmj hx hy => ?_⟩
      refine (cellOut_iff R t x y ht).1 (hm m x y hmj ?_ ?_)
      · rw [List.getElem?_take, if_pos (by omega)]; exact hx
      · rw [List.getElem?_take, if_pos (by omega)]; exact hy
    · rw [if_neg hi] at ha; cases ha
  · rintro ⟨hj, ⟨a, b, ha, hb, ho⟩, hm⟩
    refine ⟨(thrLoop R t (l.take n) (r.take n) 0).1, ?_⟩
    rw [Res.ok_inj]
    refine Prod.ext rfl (hf.2 ⟨j, a, b, by omega, ?_, ?_, (hout a b).2 ho, ?_⟩)
    · rw [List.getElem?_take, if_pos hj]; exact ha
    · rw [List.getElem?_take, if_pos hj]; exact hb
    · intro m x y hmj hx hy
      rw [List.getElem?_take, if_pos (by omega)] at hx hy
      exact (cellOut_iff R t x y ht).2 (hm m x y hmj hx hy)

example : seqThr cmpRnd (.fin 1) (some [.pinf, .pinf, .pinf]) (some [.pinf, .ninf, .ninf]) 3 =
    .ok (1, some 1) := by decide +kernel

/-- A coordinate that is not a number agrees with every number, within every threshold. -/
theorem C84_nan_violated (R : Rnd) (t : Dbl) (x : Dbl) :
    compareSetsThr R t (some (cmpSet 1 (fun _ => [.nan]) fun _ => [1]))
      (some (cmpSet 1 (fun _ => [x]) fun _ => [1])) = .ok 0 := by
  have h : cellOut R t .nan x = false := by cases x <;> rfl
  have hr := (cmpSet_reals_thr R t (n := 1) (fun _ => [.nan]) (fun _ => [x]) (fun _ => [1]) (fun _ => [1])
    (fun _ => Nat.le_refl 1) (fun _ => Nat.le_refl 1)).1.2 (by
      intro f i a b hi ha hb
      have : i = 0 := by omega
      subst this
      cases ha; cases hb; exact h)
  unfold compareSetsThr
  rw [hr, Res.ok_bind, if_pos rfl]
  refine (cmpSet_ints (n := 1) Nat.one_pos _ _ (fun _ => [1]) (fun _ => [1]) (fun _ => Nat.le_refl 1)
    (fun _ => Nat.le_refl 1) ?_ ?_).1.2 fun _ _ _ => rfl
  all_goals
    intro _ z hz
    rw [List.mem_singleton.1 hz]; unfold I64; decide

/-- With a threshold that is not a number all coordinates agree. -/
theorem C84_nan_threshold_violated (R : Rnd) (x y : Dbl) :
    compareSetsThr R .nan (some (cmpSet 1 (fun _ => [x]) fun _ => [1]))
      (some (cmpSet 1 (fun _ => [y]) fun _ => [1])) = .ok 0 := by
  have h : cellOut R .nan x y = false := by
    unfold cellOut; generalize R.sub x y = d; cases d <;> simp [Dbl.lt]
  have hr := (cmpSet_reals_thr R .nan (n := 1) (fun _ => [x]) (fun _ => [y]) (fun _ => [1]) (fun _ => [1])
    (fun _ => Nat.le_refl 1) (fun _ => Nat.le_refl 1)).1.2 (by
      intro f i a b hi ha hb
      have : i = 0 := by omega
      subst this
      cases ha; cases hb; exact h)
  unfold compareSetsThr
  rw [hr, Res.ok_bind, if_pos rfl]
  refine (cmpSet_ints (n := 1) Nat.one_pos _ _ (fun _ => [1]) (fun _ => [1]) (fun _ => Nat.le_refl 1)
    (fun _ => Nat.le_refl 1) ?_ ?_).1.2 fun _ _ _ => rfl
  all_goals
    intro _ z hz
    rw [List.mem_singleton.1 hz]; unfold I64; decide

/-- Particles lost at infinity: equal bytes are out of no threshold, since the difference is not a number;
with a negative threshold the same finite numbers differ. -/
theorem C84_negative_threshold_violated {R : Rnd} {rep : Rat → Prop} (g : R.Good rep) (q t : Rat)
    (ht : t < 0) :
    seqThr R (.fin t) (some [.fin q]) (some [.fin q]) 1 = .ok (1, some 0) ∧
    seqThr R (.fin t) (some [.pinf]) (some [.pinf]) 1 = .ok (0, none) := by
  have hs : R.sub (.fin q) (.fin q) = .fin 0 := by rw [sub_fin, sub_self, g.exact 0 g.zero]
  have h1 : cellOut R (.fin t) (.fin q) (.fin q) = true := by
    unfold cellOut; rw [hs]; simp [Dbl.le, Dbl.lt, Dbl.eq, Dbl.zero, ht]
  have h2 : (Dbl.fin q).le (.fin q) = true := Dbl.le_refl (by simp)
  constructor
  · rw [seqThr_ok R _ _ _ 1 (by simp) (by simp)]
    simp [thrLoop, h1, h2]
  · rw [seqThr_ok R _ _ _ 1 (by simp) (by simp)]
    rfl

example : cmpRnd.Good cmpRep ∧ ((-1 : Rat) < 0) := ⟨cmpRnd_good, by norm_num⟩

/-! ### The largest difference -/

/-- The difference found for a real attribute has the largest absolute value, and it is the first one with
this value. -/
theorem C84_max_difference_partial (R : Rnd) (l r : List Dbl) (n : Nat) (hl : n ≤ l.length)
    (hr : n ≤ r.length)
    (hnan : ∀ (i : Nat) (a b : Dbl), i < n → l[i]? = some a → r[i]? = some b → R.sub a b ≠ .nan) :
    ∃ (d : Dbl) (j : Nat), maxReal R (some l) (some r) n = .ok (d, j) ∧
      (∀ (i : Nat) (a b : Dbl), i < n → l[i]? = some a → r[i]? = some b →
        (R.sub a b).abs.le d.abs = true) ∧
      ((d = .zero ∧ j = 0) ∨
        (j < n ∧ ∃ a b : Dbl, l[j]? = some a ∧ r[j]? = some b ∧ d = R.sub a b ∧
          ∀ (i : Nat) (x y : Dbl), i < j → l[i]? = some x → r[i]? = some y →
            (R.sub x y).abs.lt d.abs = true)) := by
  have hget : ∀ (i : Nat) (d : Dbl), (List.zipWith R.sub (l.take n) (r.take n))[i]? = some d ↔
      ∃ a b, i < n ∧ l[i]? = some a ∧ r[i]? = some b ∧ d = R.sub a b := by
    intro i d
    rw [List.getElem?_zipWith_eq_some]
    simp only [List.getElem?_take]
    constructor
    · rintro ⟨a, b, ha, hb, h⟩
      by_cases hi : i < n
      · rw [if_pos hi] at ha hb; exact ⟨a, b, hi, ha, hb, h.symm⟩
      · rw [if_neg hi] at ha; cases ha
    · rintro ⟨a, b, hi, ha, hb, h⟩
      exact ⟨a, b, by rw [if_pos hi]; exact ha, by rw [if_pos hi]; exact hb, h.symm⟩
  have hspec := maxLoop_spec (List.zipWith R.sub (l.take n) (r.take n)) (by
    intro d hd
    obtain ⟨i, hi⟩ := List.mem_iff_getElem?.1 hd
    obtain ⟨a, b, hin, ha, hb, rfl⟩ := (hget i d).1 hi
    exact hnan i a b hin ha hb)
  unfold maxReal
  rw [realDiffs_ok R l r n hl hr, Res.ok_bind]
  generalize maxLoop (List.zipWith R.sub (l.take n) (r.take n)) 0 (.zero, .zero, 0) = st at hspec ⊢
  obtain ⟨m, d, j⟩ := st
  have hmd : m = d.abs := by
    rcases hspec.here with ⟨he, _⟩ | ⟨_, h2, _⟩
    · cases he; rfl
    · exact h2
  refine ⟨d, j, rfl, ?_, ?_⟩
  · intro i a b hi ha hb
    have := hspec.bound (R.sub a b) (List.mem_of_getElem? ((hget i _).2 ⟨a, b, hi, ha, hb, rfl⟩))
    rw [← hmd]; exact this
  · rcases hspec.here with ⟨he, _⟩ | ⟨h1, _, _, h4⟩
    · cases he; exact Or.inl ⟨rfl, rfl⟩
    · obtain ⟨a, b, hj, ha, hb, h⟩ := (hget j d).1 h1
      refine Or.inr ⟨hj, a, b, ha, hb, h, fun i x y hi hx hy => ?_⟩
      rw [← hmd]
      exact h4 i _ hi ((hget i _).2 ⟨x, y, by omega, hx, hy, rfl⟩)

example : maxReal cmpRnd (some [.fin 0, .pinf, .ninf]) (some [.fin 0, .ninf, .pinf]) 3 = .ok (.pinf, 1) := by
  unfold maxReal
  rw [realDiffs_ok _ _ _ 3 (by simp) (by simp), Res.ok_bind]
  have h : cmpRnd.sub (.fin 0) (.fin 0) = .fin 0 := by
    rw [sub_fin, sub_self, cmpRnd_good.exact 0 cmpRnd_good.zero]
  simp only [List.take, List.zipWith, h]
  rfl

/-- If none of the differences is a number, the largest one is said to be zero. -/
theorem C84_max_nan_violated (R : Rnd) (x : Dbl) (n : Nat) :
    maxReal R (some (List.replicate n .nan)) (some (List.replicate n x)) n = .ok (.zero, 0) := by
  unfold maxReal
  rw [realDiffs_ok _ _ _ n (by simp) (by simp), Res.ok_bind, maxLoop_nan]
  · rfl
  · intro d hd
    obtain ⟨i, hi⟩ := List.mem_iff_getElem?.1 hd
    rw [List.getElem?_zipWith_eq_some] at hi
    obtain ⟨a, b, ha, _, rfl⟩ := hi
    have := List.eq_of_mem_replicate (List.mem_of_mem_take (List.mem_of_getElem? ha))
    rw [this]; cases b <;> rfl

/-- The same for integers, if no difference is larger than what an `int64_t` can hold. -/
theorem C84_max_int_partial (l r : List Int) (n : Nat) (hl : n ≤ l.length) (hr : n ≤ r.length)
    (hfit : ∀ (i : Nat) (a b : Int), i < n → l[i]? = some a → r[i]? = some b → |a - b| < 2 ^ 63) :
    ∃ (d : Int) (j : Nat), maxInt l r n = .ok (d, j) ∧
      (∀ (i : Nat) (a b : Int), i < n → l[i]? = some a → r[i]? = some b → |a - b| ≤ |d|) ∧
      ((d = 0 ∧ j = 0) ∨
        (j < n ∧ ∃ a b : Int, l[j]? = some a ∧ r[j]? = some b ∧ d = a - b ∧
          ∀ (i : Nat) (x y : Int), i < j → l[i]? = some x → r[i]? = some y → |x - y| < |d|)) := by
  have hget : ∀ (i : Nat) (d : Int), (List.zipWith (· - ·) (l.take n) (r.take n))[i]? = some d ↔
      ∃ a b, i < n ∧ l[i]? = some a ∧ r[i]? = some b ∧ d = a - b := by
    intro i d
    rw [List.getElem?_zipWith_eq_some]
    simp only [List.getElem?_take]
    constructor
    · rintro ⟨a, b, ha, hb, h⟩
      by_cases hi : i < n
      · rw [if_pos hi] at ha hb; exact ⟨a, b, hi, ha, hb, h.symm⟩
      · rw [if_neg hi] at ha; cases ha
    · rintro ⟨a, b, hi, ha, hb, h⟩
      exact ⟨a, b, by rw [if_pos hi]; exact ha, by rw [if_pos hi]; exact hb, h.symm⟩
  have hd := intDiffs_ok (l.take n) (r.take n) (by
    intro i a b ha hb
    rw [List.getElem?_take] at ha hb
    by_cases hi : i < n
    · rw [if_pos hi] at ha hb; exact hfit i a b hi ha hb
    · rw [if_neg hi] at ha; cases ha)
  have h0 : IntInv [] (0, 0, 0) := ⟨by simp, Or.inl ⟨rfl, by simp⟩⟩
  obtain ⟨⟨m, d, j⟩, hst, hspec⟩ := maxIntLoop_inv (List.zipWith (· - ·) (l.take n) (r.take n)) [] _ h0 (by
    intro d hd
    obtain ⟨i, hi⟩ := List.mem_iff_getElem?.1 hd
    obtain ⟨a, b, hin, ha, hb, rfl⟩ := (hget i d).1 hi
    exact hfit i a b hin ha hb)
  rw [List.nil_append] at hspec
  have hmd : m = |d| := by
    rcases hspec.here with ⟨he, _⟩ | ⟨_, h2, _⟩
    · cases he; rfl
    · exact h2
  refine ⟨d, j, ?_, ?_, ?_⟩
  · unfold maxInt
    simp only [readN, hl, hr, if_true, Res.ok_bind, hd]
    rw [show maxIntLoop _ 0 (0, 0, 0) = _ from hst]
    rfl
  · intro i a b hi ha hb
    have := hspec.bound (a - b) (List.mem_of_getElem? ((hget i _).2 ⟨a, b, hi, ha, hb, rfl⟩))
    rw [← hmd]; exact this
  · rcases hspec.here with ⟨he, _⟩ | ⟨h1, _, _, h4⟩
    · cases he; exact Or.inl ⟨rfl, rfl⟩
    · obtain ⟨a, b, hj, ha, hb, h⟩ := (hget j d).1 h1
      refine Or.inr ⟨hj, a, b, ha, hb, h, fun i x y hi hx hy => ?_⟩
      rw [← hmd]
      exact h4 i _ hi ((hget i _).2 ⟨x, y, by omega, hx, hy, rfl⟩)

example : maxInt [1, -5, 9] [1, 2, 2] 3 = .ok (-7, 1) := by decide +kernel

/-- Otherwise the subtraction is undefined: a particle that is marked with the least number, and one. -/
theorem C84_max_int_violated : maxInt [-2 ^ 63] [1] 1 = .ub ∧ maxInt [-2 ^ 63] [0] 1 = .ub := by
  constructor <;> decide +kernel

/-- For the largest differences of a set of particles each real attribute of the first particle of the
result holds the difference of that attribute; nothing else is written. -/
theorem C84_max_set (R : Rnd) (md lhs rhs : RealSet) (n : Nat) (hn : 0 < n) (hm : ∀ f, md f ≠ [])
    (hl : ∀ f, n ≤ (lhs f).length) (hr : ∀ f, n ≤ (rhs f).length) :
    ∃ md' : RealSet, maxSets R true md lhs rhs n = .ok md' ∧
      ∀ f, ∃ d : Dbl × Nat, maxReal R (some (lhs f)) (some (rhs f)) n = .ok d ∧
        md' f = d.1 :: (md f).tail := by
  obtain ⟨md', h1, _, h3⟩ := getMaxReal_spec R lhs rhs n hl hr realFields md (by decide) hm
  exact ⟨md', by simp only [maxSets, true_and]; rw [if_pos (by omega)]; exact h1,
    fun f => h3 f (realMem f)⟩

example : (∀ f : RealField, ((fun _ => [Dbl.zero]) f) ≠ []) ∧
    ∀ f : RealField, 2 ≤ ((fun _ => [Dbl.fin 3, Dbl.fin 4]) f).length :=
  ⟨fun _ => by simp, fun _ => Nat.le_refl 2⟩

/-- Without an array for the indices nothing is compared and nothing is written, although the function
provides indices of its own for this case. -/
theorem C84_max_indices_violated (R : Rnd) (md lhs rhs : RealSet) (n : Nat) :
    maxSets R false md lhs rhs n = .ok md := by
  simp [maxSets]

/-- For buffers the differences do not go to the buffer that is given for them, which stays as it is. -/
theorem C84_max_buffers_violated (R : Rnd) (indices : Bool) (n : Nat) (md lhs rhs : List RealSet)
    (md' lhs' rhs' : List RealSet)
    (h : buffersMax R indices n md lhs rhs = .ok (md', lhs', rhs')) : md' = md := by
  unfold buffersMax at h
  split at h
  · obtain ⟨a, _, h2⟩ := Res.bind_eq_ok.1 h
    have := (Res.ok_inj _ _).1 h2
    injection this with h3 _
    exact h3.symm
  · have := (Res.ok_inj _ _).1 h
    injection this with h3 _
    exact h3.symm

/-- Instead they are written over the first particle of the sets that are compared, although they are
passed as constant. -/
theorem C84_max_overwrites_violated (R : Rnd) (n : Nat) (hn : 0 < n) (md lhs rhs : RealSet)
    (hl : ∀ f, n ≤ (lhs f).length) (hr : ∀ f, n ≤ (rhs f).length) :
    ∃ lhs' : RealSet, buffersMax R true n [md] [lhs] [rhs] = .ok ([md], [lhs'], [rhs]) ∧
      ∀ f, ∃ d : Dbl × Nat, maxReal R (some (lhs f)) (some (rhs f)) n = .ok d ∧
        lhs' f = d.1 :: (lhs f).tail := by
  obtain ⟨l', h1, h2⟩ := C84_max_set R lhs lhs rhs n hn (by
    intro f he
    have := hl f
    rw [he] at this
    simp at this; omega) hl hr
  refine ⟨l', ?_, h2⟩
  simp only [buffersMax, bufMax, List.length_cons, and_self, if_true, h1, Res.ok_bind]
  rfl

example : (0 < 2) ∧ ∀ f : RealField, 2 ≤ ((fun _ => [Dbl.fin 3, Dbl.fin 4]) f).length :=
  ⟨by decide, fun _ => Nat.le_refl 2⟩

/-- The index printed beside a difference is the one that was found for it for the first 16 attributes; for
each of the others it is the index of another attribute. -/
theorem C84_printed_index_violated (k : Nat) (hk : k < 21) :
    writtenIndex[k]? = some k ∧
    (k < 16 → printedIndex[k]? = some k) ∧ (16 ≤ k → printedIndex[k]? = some (k - 1)) := by
  revert k; decide

/-! ### Words and numbers, arrays that are missing or too short -/

private theorem dec_fin (w : Nat) (h : w < 2047 * 2 ^ 52) :
    dec w = .fin (((if w / 2 ^ 52 = 0 then 2 * (w % 2 ^ 52) else
      (2 ^ 52 + w % 2 ^ 52) * 2 ^ (w / 2 ^ 52) : Nat) : Rat) / 2 ^ 1075) := by
  have he : w / 2 ^ 52 % 2 ^ 11 = w / 2 ^ 52 := by omega
  have hne : ¬ w / 2 ^ 52 = 2047 := by omega
  have hs : ¬ w / 2 ^ 63 % 2 = 1 := by omega
  unfold dec
  simp only [he, if_neg hne, decide_eq_true_eq, if_neg hs]
  congr 1
  split
  · rw [Nat.cast_mul, show (2 : Rat) ^ 1075 = 2 * 2 ^ 1074 by rw [pow_succ' (2 : Rat) 1074], Nat.cast_ofNat,
      mul_div_mul_left _ _ two_ne_zero]
  · push_cast; rfl

/-- The numbers of the words: among the words without the sign bit a larger word is a larger number, the last
one of them being infinity; the least one above zero is `2^-1074`; with the sign bit it is the opposite
number. -/
theorem C84_words (w v : Nat) (hv : v ≤ 2047 * 2 ^ 52) :
    (w < v → (dec w).lt (dec v) = true) ∧ dec 1 = .fin (1 / 2 ^ 1074) ∧ dec (2047 * 2 ^ 52) = .pinf ∧
    dec (1023 * 2 ^ 52) = .fin 1 ∧ dec (2 ^ 63 + v) = (dec v).neg := by
  refine ⟨fun hw => ?_, ?_, by decide +kernel, by decide +kernel, ?_⟩
  · have h1 := dec_fin w (by omega)
    rcases Nat.lt_or_eq_of_le hv with hv | rfl
    · rw [h1, dec_fin v hv]
      simp only [Dbl.lt, decide_eq_true_eq]
      rw [div_lt_div_iff_of_pos_right (by positivity), Nat.cast_lt]
      have hq : w / 2 ^ 52 ≤ v / 2 ^ 52 := Nat.div_le_div_right (Nat.le_of_lt hw)
      have hm : ∀ x : Nat, x % 2 ^ 52 < 2 ^ 52 := fun x => Nat.mod_lt _ (by decide)
      have hw' := Nat.div_add_mod w (2 ^ 52)
      have hv' := Nat.div_add_mod v (2 ^ 52)
      have mw := hm w
      have mv := hm v
      generalize w / 2 ^ 52 = e at *
      generalize v / 2 ^ 52 = e' at *
      generalize w % 2 ^ 52 = m at *
      generalize v % 2 ^ 52 = m' at *
      rcases Nat.lt_or_eq_of_le hq with hq | rfl
      · have hp : (2 : Nat) ^ (e + 1) ≤ 2 ^ e' := Nat.pow_le_pow_right (by decide) hq
        have h2 : (if e = 0 then 2 * m else (2 ^ 52 + m) * 2 ^ e) < 2 ^ 52 * 2 ^ (e + 1) := by
          split
          · next h0 => subst h0; omega
          · rw [pow_succ 2 e, ← Nat.mul_assoc, Nat.mul_right_comm]
            exact Nat.mul_lt_mul_of_pos_right (by omega) (by positivity)
        rw [if_neg (by omega : ¬ e' = 0)]
        calc _ < 2 ^ 52 * 2 ^ (e + 1) := h2
          _ ≤ 2 ^ 52 * 2 ^ e' := Nat.mul_le_mul_left _ hp
          _ ≤ _ := Nat.mul_le_mul_right _ (by omega)
      · split
        · omega
        · exact Nat.mul_lt_mul_of_pos_right (by omega) (by positivity)
    · rw [h1, show dec (2047 * 2 ^ 52) = .pinf by decide +kernel]; rfl
  · decide +kernel
  · have h1 : (2 ^ 63 + v) % 2 ^ 52 = v % 2 ^ 52 := by omega
    have h2 : (2 ^ 63 + v) / 2 ^ 52 % 2 ^ 11 = v / 2 ^ 52 % 2 ^ 11 := by omega
    have h3 : (2 ^ 63 + v) / 2 ^ 63 % 2 = 1 := by omega
    have h4 : ¬ v / 2 ^ 63 % 2 = 1 := by omega
    unfold dec
    simp only [h1, h2, h3, h4, decide_true, decide_false, if_true, Bool.false_eq_true, if_false]
    generalize v / 2 ^ 52 % 2 ^ 11 = e
    generalize v % 2 ^ 52 = m
    by_cases he : e = 2047
    · rw [if_pos he, if_pos he]
      by_cases hm : m = 0
      · rw [if_pos hm, if_pos hm]; rfl
      · rw [if_neg hm, if_neg hm]; rfl
    · rw [if_neg he, if_neg he]; rfl

example : (3 : Nat) < 2 ^ 52 ∧ 2 ^ 52 ≤ 2047 * 2 ^ 52 := by decide

/-- Arrays that hold fewer numbers than there are particles are read beyond their end. -/
theorem C84_short_violated (R : Rnd) (t : Dbl) (a b : List Nat) (l r : List Dbl) (n : Nat)
    (h : a.length < n ∨ b.length < n) (h' : l.length < n ∨ r.length < n) :
    seqExact (some a) (some b) n = .ub ∧ seqThr R t (some l) (some r) n = .ub ∧
    maxReal R (some l) (some r) n = .ub := by
  have key : ∀ {α β : Type} (a b : List α) (f : List α → List α → Res β), (a.length < n ∨ b.length < n) →
      ((readN a n).bind fun x => (readN b n).bind fun y => f x y) = Res.ub := by
    intro α β a b f h
    unfold readN
    by_cases ha : n ≤ a.length
    · rw [if_pos ha, if_neg (by omega : ¬ n ≤ b.length)]; rfl
    · rw [if_neg ha]; rfl
  have hn : n ≠ 0 := by omega
  refine ⟨?_, key l r (fun x y => .ok (thrLoop R t x y 0)) h', ?_⟩
  · unfold seqExact
    rw [if_neg hn]
    exact key a b (fun x y => .ok (memcmp (x.flatMap bytesOf) (y.flatMap bytesOf))) h
  · have e : realDiffs R (some l) (some r) n = .ub := key l r (fun x y => .ok (List.zipWith R.sub x y)) h'
    unfold maxReal
    rw [e]; rfl

example : ([1] : List Nat).length < 2 := by decide

/-- Attributes that are missing in both sets differ, for both comparisons; for the largest difference they
agree, and an attribute that is missing on one side counts as zero, with the sign of the other side lost. -/
theorem C84_missing_violated (R : Rnd) (t : Dbl) (a : List Nat) (l : List Dbl) (n : Nat) (hn : 0 < n)
    (hl : n ≤ l.length) :
    seqExact none none n = .ok (-1) ∧ seqExact (some a) none n = .ok 1 ∧ seqExact none (some a) n = .ok (-1) ∧
    seqThr R t none none n = .ok (-1, none) ∧ seqThr R t (some l) none n = .ok (1, none) ∧
    seqThr R t none (some l) n = .ok (-1, none) ∧
    maxReal R none none n = .ok (.zero, 0) ∧
    (∃ d j, maxReal R none (some l) n = .ok (d, j) ∧ maxReal R (some l) none n = .ok (d, j) ∧
      ((∀ x ∈ l, x ≠ .nan) → ∀ x ∈ l.take n, x.abs.le d.abs = true)) := by
  have h0 : n ≠ 0 := by omega
  have e : readN l n = .ok (l.take n) := by unfold readN; rw [if_pos hl]
  refine ⟨by simp [seqExact, h0], by simp [seqExact, h0], by simp [seqExact, h0], rfl, rfl, rfl, rfl, ?_⟩
  refine ⟨(maxLoop (l.take n) 0 (.zero, .zero, 0)).2.1, (maxLoop (l.take n) 0 (.zero, .zero, 0)).2.2, ?_, ?_, ?_⟩
  · unfold maxReal realDiffs; simp only [e]; rfl
  · unfold maxReal realDiffs; simp only [e]; rfl
  · intro hx x hxm
    have hspec := maxLoop_spec (l.take n) fun d hd => hx d (List.mem_of_mem_take hd)
    generalize maxLoop (l.take n) 0 (.zero, .zero, 0) = st at hspec ⊢
    obtain ⟨m, d, j⟩ := st
    have hmd : m = d.abs := by
      rcases hspec.here with ⟨he, _⟩ | ⟨_, h2, _⟩
      · cases he; rfl
      · exact h2
    have := hspec.bound x hxm
    rw [← hmd]; exact this

example : (1 : Nat) ≤ [Dbl.fin 3].length := by decide

/-- A result without room for a particle is written beyond its end. -/
theorem C84_max_room_violated (R : Rnd) (md lhs rhs : RealSet) (n : Nat) (hn : 0 < n) (hm : ∃ f, md f = [])
    (hl : ∀ f, n ≤ (lhs f).length) (hr : ∀ f, n ≤ (rhs f).length) :
    maxSets R true md lhs rhs n = .ub := by
  have key : ∀ (fs : List RealField) (md : RealSet), (∃ f ∈ fs, md f = []) →
      getMaxReal R md lhs rhs n fs = .ub := by
    intro fs
    induction fs with
    | nil => rintro md ⟨f, hf, _⟩; cases hf
    | cons g fs ih =>
      intro md hm
      obtain ⟨d, hd⟩ : ∃ d, maxReal R (some (lhs g)) (some (rhs g)) n = .ok d := by
        unfold maxReal
        rw [realDiffs_ok R _ _ n (hl g) (hr g)]
        exact ⟨_, rfl⟩
      rw [getMaxReal, hd, Res.ok_bind]
      cases hg : md g with
      | nil => rfl
      | cons x xs =>
        show getMaxReal R _ lhs rhs n fs = .ub
        refine ih _ ?_
        obtain ⟨f, hf, hf'⟩ := hm
        have hne : f ≠ g := by rintro rfl; rw [hg] at hf'; cases hf'
        refine ⟨f, ?_, ?_⟩
        · rcases List.mem_cons.1 hf with h | h
          · exact absurd h hne
          · exact h
        · simp only [if_neg hne]; exact hf'
  obtain ⟨f, hf⟩ := hm
  simp only [maxSets, true_and]
  rw [if_pos (by omega)]
  exact key realFields md ⟨f, realMem f, hf⟩

example : ∃ f : RealField, ((fun _ => []) : RealSet) f = [] := ⟨.x, rfl⟩

end SixTrack
