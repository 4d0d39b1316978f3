import Verif.Particles
import Mathlib.Data.List.Nodup
import Mathlib.Tactic.Push
import Mathlib.Tactic.ByContra

/-! # Helper lemmas for particle sets -/

namespace SixTrack
namespace Particles

/-- The `n` entries of an array from index `k`. -/
def seg (a : Nat → Int) (k : Nat) : Nat → List Int
  | 0 => []
  | n + 1 => a k :: seg a (k + 1) n

@[simp] theorem seg_length (a : Nat → Int) (k n : Nat) : (seg a k n).length = n := by
  induction n generalizing k with
  | zero => rfl
  | succ n ih => simp [seg, ih]

theorem seg_getElem (a : Nat → Int) (k n i : Nat) (h : i < (seg a k n).length) :
    (seg a k n)[i] = a (k + i) := by
  induction n generalizing k i with
  | zero => simp at h
  | succ n ih =>
    cases i with
    | zero => simp [seg]
    | succ i =>
      simp only [seg, List.getElem_cons_succ]
      rw [ih]; congr 1; omega

theorem seg_congr {a b : Nat → Int} {k n : Nat} (h : ∀ i, k ≤ i → i < k + n → a i = b i) :
    seg a k n = seg b k n := by
  induction n generalizing k with
  | zero => rfl
  | succ n ih =>
    simp only [seg]
    rw [h k (by omega) (by omega), ih (fun i h1 h2 => h i (by omega) (by omega))]

theorem seg_append (a : Nat → Int) (k m n : Nat) :
    seg a k (m + n) = seg a k m ++ seg a (k + m) n := by
  induction m generalizing k with
  | zero => simp [seg]
  | succ m ih =>
    rw [show m + 1 + n = (m + n) + 1 by omega]
    simp only [seg, List.cons_append]
    rw [ih, show k + 1 + m = k + (m + 1) by omega]

theorem seg_shift {a b : Nat → Int} {k l n : Nat} (h : ∀ i, i < n → a (k + i) = b (l + i)) :
    seg a k n = seg b l n := by
  induction n generalizing k l with
  | zero => rfl
  | succ n ih =>
    simp only [seg]
    have h0 := h 0 (by omega)
    rw [show k + 0 = k from rfl, show l + 0 = l from rfl] at h0
    rw [h0]
    congr 1
    apply ih
    intro i hi
    have := h (i + 1) (by omega)
    rw [show k + 1 + i = k + (i + 1) by omega, show l + 1 + i = l + (i + 1) by omega]
    exact this

/-- Array `a` with the list `l` written from index `k` on. -/
def writeList (a : Nat → Int) (k : Nat) : List Int → (Nat → Int)
  | [] => a
  | v :: vs => writeList (setAt a k v) (k + 1) vs

theorem writeList_out (l : List Int) (a : Nat → Int) (k i : Nat) (h : i < k ∨ k + l.length ≤ i) :
    writeList a k l i = a i := by
  induction l generalizing a k with
  | nil => rfl
  | cons v vs ih =>
    simp only [writeList, List.length_cons] at *
    rw [ih _ _ (by omega), setAt, if_neg (by omega)]

theorem seg_writeList (l : List Int) (a : Nat → Int) (k : Nat) :
    seg (writeList a k l) k l.length = l := by
  induction l generalizing a k with
  | nil => rfl
  | cons v vs ih =>
    simp only [writeList, List.length_cons, seg]
    rw [ih, writeList_out _ _ _ _ (Or.inl (by omega))]
    simp [setAt]

/-- Merging two lists, failing on a common element. -/
def mergeL : List Int → List Int → Option (List Int)
  | [], ys => some ys
  | xs, [] => some xs
  | x :: xs, y :: ys =>
    if x < y then (mergeL xs (y :: ys)).map (x :: ·)
    else if x > y then (mergeL (x :: xs) ys).map (y :: ·)
    else none
termination_by xs ys => xs.length + ys.length

theorem appendRest_eq (t : Nat → Int) (num ii kk : Nat) (a : Nat → Int) :
    appendRest t num ii kk a = writeList a kk (seg t ii (num - ii)) := by
  induction h : num - ii generalizing ii kk a with
  | zero =>
    unfold appendRest
    rw [if_neg (by omega)]; rfl
  | succ n ih =>
    unfold appendRest
    rw [if_pos (by omega), ih _ _ _ (by omega)]
    simp [seg, writeList]

theorem mergeLoop_eq (lhs rhs : Nat → Int) (ln rn ii jj kk : Nat) (a : Nat → Int) :
    (∃ l, mergeL (seg lhs ii (ln - ii)) (seg rhs jj (rn - jj)) = some l ∧
      mergeLoop lhs rhs ln rn ii jj kk a = (0, writeList a kk l)) ∨
    (mergeL (seg lhs ii (ln - ii)) (seg rhs jj (rn - jj)) = none ∧
      (mergeLoop lhs rhs ln rn ii jj kk a).1 = -1) := by
  induction h : (ln - ii) + (rn - jj) using Nat.strongRecOn generalizing ii jj kk a with
  | _ n ih =>
    subst h
    unfold mergeLoop
    by_cases hb : ii < ln ∧ jj < rn
    · rw [if_pos hb]
      obtain ⟨p, hp⟩ : ∃ p, ln - ii = p + 1 := ⟨ln - ii - 1, by omega⟩
      obtain ⟨q, hq⟩ : ∃ q, rn - jj = q + 1 := ⟨rn - jj - 1, by omega⟩
      rw [hp, hq]
      simp only [seg, mergeL]
      by_cases h1 : lhs ii < rhs jj
      · rw [if_pos h1, if_pos h1]
        have := ih ((ln - (ii + 1)) + (rn - jj)) (by omega) (ii + 1) jj (kk + 1)
          (setAt a kk (lhs ii)) rfl
        rw [show ln - (ii + 1) = p by omega, hq] at this
        rcases this with ⟨l, h2, h3⟩ | ⟨h2, h3⟩
        · left
          refine ⟨lhs ii :: l, ?_, ?_⟩
          · simp only [seg] at h2; rw [h2]; rfl
          · rw [h3]; rfl
        · right
          refine ⟨?_, h3⟩
          simp only [seg] at h2; rw [h2]; rfl
      · rw [if_neg h1, if_neg h1]
        by_cases h4 : lhs ii > rhs jj
        · rw [if_pos h4, if_pos h4]
          have := ih ((ln - ii) + (rn - (jj + 1))) (by omega) ii (jj + 1) (kk + 1)
            (setAt a kk (rhs jj)) rfl
          rw [show rn - (jj + 1) = q by omega, hp] at this
          rcases this with ⟨l, h2, h3⟩ | ⟨h2, h3⟩
          · left
            refine ⟨rhs jj :: l, ?_, ?_⟩
            · simp only [seg] at h2; rw [h2]; rfl
            · rw [h3]; rfl
          · right
            refine ⟨?_, h3⟩
            simp only [seg] at h2; rw [h2]; rfl
        · rw [if_neg h4, if_neg h4]
          right; exact ⟨rfl, rfl⟩
    · rw [if_neg hb]
      left
      by_cases h1 : ii < ln
      · rw [if_pos h1]
        have hj : rn - jj = 0 := by omega
        obtain ⟨p, hp⟩ : ∃ p, ln - ii = p + 1 := ⟨ln - ii - 1, by omega⟩
        refine ⟨seg lhs ii (ln - ii), ?_, by rw [appendRest_eq]⟩
        rw [hj, hp]; simp [seg, mergeL]
      · rw [if_neg h1]
        have hi : ln - ii = 0 := by omega
        by_cases h2 : jj < rn
        · rw [if_pos h2]
          refine ⟨seg rhs jj (rn - jj), ?_, by rw [appendRest_eq]⟩
          rw [hi]; simp [seg, mergeL]
        · rw [if_neg h2]
          have hj : rn - jj = 0 := by omega
          refine ⟨[], ?_, rfl⟩
          rw [hi, hj]; simp [seg, mergeL]

theorem mergeL_some {xs ys l : List Int} (h : mergeL xs ys = some l) : l.Perm (xs ++ ys) := by
  induction hn : xs.length + ys.length using Nat.strongRecOn generalizing xs ys l with
  | _ n ih =>
    subst hn
    match xs, ys with
    | [], ys => simp [mergeL] at h; subst h; simp
    | x :: xs, [] => simp [mergeL] at h; subst h; simp
    | x :: xs, y :: ys =>
      simp only [mergeL] at h
      split at h
      · rw [Option.map_eq_some_iff] at h
        obtain ⟨l', h1, rfl⟩ := h
        exact (ih _ (by simp) h1 rfl).cons x
      · split at h
        · rw [Option.map_eq_some_iff] at h
          obtain ⟨l', h1, rfl⟩ := h
          exact ((ih _ (by simp) h1 rfl).cons y).trans List.perm_middle.symm
        · cases h

theorem mergeL_sorted {xs ys l : List Int} (h : mergeL xs ys = some l)
    (hx : xs.Pairwise (· < ·)) (hy : ys.Pairwise (· < ·)) : l.Pairwise (· < ·) := by
  induction hn : xs.length + ys.length using Nat.strongRecOn generalizing xs ys l with
  | _ n ih =>
    subst hn
    match xs, ys with
    | [], ys => simp [mergeL] at h; subst h; exact hy
    | x :: xs, [] => simp [mergeL] at h; subst h; exact hx
    | x :: xs, y :: ys =>
      simp only [mergeL] at h
      rw [List.pairwise_cons] at hx hy
      split at h
      · rename_i hlt
        rw [Option.map_eq_some_iff] at h
        obtain ⟨l', h1, rfl⟩ := h
        rw [List.pairwise_cons]
        refine ⟨?_, ih _ (by simp) h1 hx.2 (List.pairwise_cons.2 hy) rfl⟩
        intro z hz
        have := (mergeL_some h1).mem_iff.1 hz
        simp only [List.mem_append, List.mem_cons] at this
        rcases this with h | rfl | h
        · exact hx.1 z h
        · exact hlt
        · have := hy.1 z h; omega
      · split at h
        · rename_i hgt
          rw [Option.map_eq_some_iff] at h
          obtain ⟨l', h1, rfl⟩ := h
          rw [List.pairwise_cons]
          refine ⟨?_, ih _ (by simp) h1 (List.pairwise_cons.2 hx) hy.2 rfl⟩
          intro z hz
          have := (mergeL_some h1).mem_iff.1 hz
          simp only [List.mem_append, List.mem_cons] at this
          rcases this with (rfl | h) | h
          · exact hgt
          · have := hx.1 z h; omega
          · exact hy.1 z h
        · cases h

theorem mergeL_none {xs ys : List Int} (h : mergeL xs ys = none) : ∃ z, z ∈ xs ∧ z ∈ ys := by
  induction hn : xs.length + ys.length using Nat.strongRecOn generalizing xs ys with
  | _ n ih =>
    subst hn
    match xs, ys with
    | [], ys => simp [mergeL] at h
    | x :: xs, [] => simp [mergeL] at h
    | x :: xs, y :: ys =>
      simp only [mergeL] at h
      split at h
      · rw [Option.map_eq_none_iff] at h
        obtain ⟨z, h1, h2⟩ := ih _ (by simp) h rfl
        exact ⟨z, List.mem_cons_of_mem _ h1, h2⟩
      · split at h
        · rw [Option.map_eq_none_iff] at h
          obtain ⟨z, h1, h2⟩ := ih _ (by simp) h rfl
          exact ⟨z, h1, List.mem_cons_of_mem _ h2⟩
        · exact ⟨x, by simp, by simp; omega⟩

theorem nodup_of_sorted {l : List Int} (h : l.Pairwise (· < ·)) : l.Nodup :=
  h.imp (fun h => by omega)

theorem merge_spec (a : Nat → Int) (lb ln rn : Nat)
    (hl : (seg a lb ln).Pairwise (· < ·)) (hr : (seg a (lb + ln) rn).Pairwise (· < ·)) :
    ((merge a lb (lb + ln) (lb + ln + rn)).1 = 0 ∧
      (seg (merge a lb (lb + ln) (lb + ln + rn)).2 lb (ln + rn)).Pairwise (· < ·) ∧
      (seg (merge a lb (lb + ln) (lb + ln + rn)).2 lb (ln + rn)).Perm (seg a lb (ln + rn)) ∧
      ∀ i, (i < lb ∨ lb + (ln + rn) ≤ i) → (merge a lb (lb + ln) (lb + ln + rn)).2 i = a i) ∨
    ((merge a lb (lb + ln) (lb + ln + rn)).1 = -1 ∧ ¬ (seg a lb (ln + rn)).Nodup) := by
  unfold merge
  have e1 : lb + ln - lb = ln := by omega
  have e2 : lb + ln + rn - (lb + ln) = rn := by omega
  have s1 : seg (copyOut a lb (lb + ln)) 0 ln = seg a lb ln := by
    apply seg_shift; intro i hi; simp [copyOut, hi]
  have s2 : seg (copyOut a (lb + ln) (lb + ln + rn)) 0 rn = seg a (lb + ln) rn := by
    apply seg_shift; intro i hi; simp [copyOut, hi]
  rw [e1, e2]
  have := mergeLoop_eq (copyOut a lb (lb + ln)) (copyOut a (lb + ln) (lb + ln + rn)) ln rn 0 0 lb a
  rw [Nat.sub_zero, Nat.sub_zero, s1, s2] at this
  rcases this with ⟨l, h1, h2⟩ | ⟨h1, h2⟩
  · left
    rw [h2]
    have hp := mergeL_some h1
    have hlen : l.length = ln + rn := by rw [hp.length_eq]; simp
    refine ⟨rfl, ?_, ?_, ?_⟩
    · rw [← hlen, seg_writeList]; exact mergeL_sorted h1 hl hr
    · rw [show seg (writeList a lb l) lb (ln + rn) = l by rw [← hlen, seg_writeList],
        seg_append]
      exact hp
    · intro i hi
      exact writeList_out _ _ _ _ (by omega)
  · right
    refine ⟨h2, ?_⟩
    obtain ⟨z, hz1, hz2⟩ := mergeL_none h1
    rw [seg_append, List.nodup_append]
    rintro ⟨-, -, h⟩
    exact h z hz1 z hz2 rfl

theorem mergeSort_spec (a : Nat → Int) (l n : Nat) :
    ((mergeSort a l (l + n)).1 = 0 ∧
      (seg (mergeSort a l (l + n)).2 l (n + 1)).Pairwise (· < ·) ∧
      (seg (mergeSort a l (l + n)).2 l (n + 1)).Perm (seg a l (n + 1)) ∧
      ∀ i, (i < l ∨ l + n < i) → (mergeSort a l (l + n)).2 i = a i) ∨
    ((mergeSort a l (l + n)).1 = -1 ∧ ¬ (seg a l (n + 1)).Nodup) := by
  induction n using Nat.strongRecOn generalizing a l with
  | _ n ih =>
    unfold mergeSort
    by_cases hn : n = 0
    · subst hn
      left
      simp [seg]
    · rw [if_pos (by omega)]
      dsimp only
      have em : l + (l + n - l) / 2 = l + n / 2 := by congr 2; omega
      rw [em]
      have esplit : n + 1 = (n / 2 + 1) + ((n - n / 2 - 1) + 1) := by omega
      rcases ih (n / 2) (by omega) a l with ⟨p1, p2, p3, p4⟩ | ⟨p1, p2⟩
      · rw [if_pos p1]
        generalize hb : (mergeSort a l (l + n / 2)).2 = b at *
        have er : l + n = (l + n / 2 + 1) + (n - n / 2 - 1) := by omega
        have hbseg : seg b (l + n / 2 + 1) (n - n / 2 - 1 + 1) =
            seg a (l + n / 2 + 1) (n - n / 2 - 1 + 1) := by
          apply seg_congr; intro i h1 h2; exact p4 i (by omega)
        have h2 := ih (n - n / 2 - 1) (by omega) b (l + n / 2 + 1)
        rw [← er, hbseg] at h2
        rcases h2 with ⟨q1, q2, q3, q4⟩ | ⟨q1, q2⟩
        · rw [if_pos q1]
          generalize hc : (mergeSort b (l + n / 2 + 1) (l + n)).2 = c at *
          have hcseg : seg c l (n / 2 + 1) = seg b l (n / 2 + 1) := by
            apply seg_congr; intro i h1 h2; exact q4 i (by omega)
          have hm := merge_spec c l (n / 2 + 1) (n - n / 2 - 1 + 1)
            (by rw [hcseg]; exact p2)
            (by rw [show l + (n / 2 + 1) = l + n / 2 + 1 by omega]; exact q2)
          rw [show l + (n / 2 + 1) = l + n / 2 + 1 by omega,
            show l + n / 2 + 1 + (n - n / 2 - 1 + 1) = l + n + 1 by omega, ← esplit] at hm
          have hperm : (seg c l (n + 1)).Perm (seg a l (n + 1)) := by
            rw [esplit, seg_append c, seg_append a, hcseg,
              show l + (n / 2 + 1) = l + n / 2 + 1 by omega]
            exact p3.append q3
          rcases hm with ⟨m1, m2, m3, m4⟩ | ⟨m1, m2⟩
          · left
            refine ⟨m1, m2, m3.trans hperm, ?_⟩
            intro i hi
            rw [m4 i (by omega), q4 i (by omega), p4 i (by omega)]
          · right
            exact ⟨m1, fun h => m2 (hperm.nodup_iff.2 h)⟩
        · rw [if_neg (by omega)]
          right
          refine ⟨rfl, fun h => q2 ?_⟩
          rw [esplit, seg_append, List.nodup_append,
            show l + (n / 2 + 1) = l + n / 2 + 1 by omega] at h
          exact h.2.1
      · rw [if_neg (by omega)]
        right
        refine ⟨rfl, fun h => p2 ?_⟩
        rw [esplit, seg_append, List.nodup_append] at h
        exact h.1

theorem absI_eq {z : Int} (h : -2^63 < z) (h' : z < 2^63) : absI z = .ok (z.natAbs : Int) := by
  unfold absI
  split
  · rw [Res.ok_inj]; omega
  · rw [i64_ok ⟨by omega, by omega⟩, Res.ok_inj]; omega

theorem absAll_eq {zs : List Int} (h : ∀ z ∈ zs, -2^63 < z ∧ z < 2^63) :
    absAll zs = .ok (zs.map fun z => (z.natAbs : Int)) := by
  induction zs with
  | nil => rfl
  | cons z zs ih =>
    have hz := h z (by simp)
    simp only [absAll, absI_eq hz.1 hz.2, Res.ok_bind,
      ih (fun w hw => h w (List.mem_cons_of_mem _ hw))]
    rfl

theorem seg_getD (l : List Int) : seg (fun i => l.getD i 0) 0 l.length = l := by
  apply List.ext_getElem
  · simp
  · intro i h1 h2
    rw [seg_getElem]
    simp [List.getD, h2]

theorem strictlyIncreasing_of_sorted {a : Nat → Int} {n : Nat}
    (h : (seg a 0 n).Pairwise (· < ·)) : strictlyIncreasing a n = true := by
  unfold strictlyIncreasing
  rw [List.all_eq_true]
  intro i hi
  rw [List.mem_range] at hi
  rw [List.pairwise_iff_getElem] at h
  have := h i (i + 1) (by simp; omega) (by simp; omega) (by omega)
  rw [seg_getElem, seg_getElem] at this
  simpa using this

theorem updMin_le (m t : Int) : updMin m t ≤ m ∧ updMin m t ≤ t := by unfold updMin; split <;> omega
theorem le_updMax (m t : Int) : m ≤ updMax m t ∧ t ≤ updMax m t := by unfold updMax; split <;> omega
theorem updMin_eq (m t : Int) : updMin m t = min m t := by unfold updMin; split <;> omega
theorem updMax_eq (m t : Int) : updMax m t = max m t := by unfold updMax; split <;> omega

end Particles
end SixTrack
