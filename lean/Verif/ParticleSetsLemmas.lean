import Verif.ParticleSets
import Verif.Props.Particles

/-!
# Lemmas about the choice of the particle sets
-/

namespace SixTrack.ParticleSets
open Particles

/-- the particles of an object, none if it is no particle set -/
def particlesOf (o : Option (List Attr)) : List Attr := o.getD []

/-- number of particles in the objects before object `i` -/
def countBefore (objs : List (Option (List Attr))) (i : Nat) : Nat :=
  ((objs.take i).flatMap particlesOf).length

/-- the particles of the objects with the given indices -/
def chosen (objs : List (Option (List Attr))) (is : List Nat) : List Attr :=
  is.flatMap fun i => particlesOf (objs[i]?.join)

theorem numParticles_eq (o : Option (List Attr)) : numParticles o = (particlesOf o).length := by
  cases o <;> simp [numParticles, particlesOf]

theorem mem_unique (l : List Nat) (a : Nat) : a ∈ unique l ↔ a ∈ l := by
  fun_induction unique l with
  | case1 => simp
  | case2 => simp
  | case3 b l ih => rw [ih]; simp
  | case4 b c l h ih => simp only [List.mem_cons] at ih ⊢; rw [ih]

theorem unique_pairwise (l : List Nat) (h : l.Pairwise (· ≤ ·)) : (unique l).Pairwise (· < ·) := by
  fun_induction unique l with
  | case1 => simp
  | case2 => simp
  | case3 b l ih => exact ih h.tail
  | case4 b c l hne ih =>
    refine List.pairwise_cons.2 ⟨fun x hx => ?_, ih h.tail⟩
    rw [mem_unique] at hx
    have h1 := (List.pairwise_cons.1 h).1 c (by simp)
    rcases List.mem_cons.1 hx with rfl | hx
    · omega
    · have h2 := (List.pairwise_cons.1 h.tail).1 x hx
      omega

/-- the indices the loop runs over -/
def sortedIdx (idx : List Nat) : List Nat := unique (sortIdx idx)

theorem mem_insertIdx (a : Nat) (l : List Nat) (x : Nat) : x ∈ insertIdx a l ↔ x = a ∨ x ∈ l := by
  induction l with
  | nil => simp [insertIdx]
  | cons b l ih =>
    simp only [insertIdx]
    split
    · simp
    · simp only [List.mem_cons, ih]
      exact or_left_comm

theorem mem_sortIdx (l : List Nat) (x : Nat) : x ∈ sortIdx l ↔ x ∈ l := by
  induction l with
  | nil => simp [sortIdx]
  | cons a l ih => simp [sortIdx, mem_insertIdx, ih]

theorem insertIdx_pairwise (a : Nat) (l : List Nat) (h : l.Pairwise (· ≤ ·)) :
    (insertIdx a l).Pairwise (· ≤ ·) := by
  induction l with
  | nil => simp [insertIdx]
  | cons b l ih =>
    obtain ⟨h1, h2⟩ := List.pairwise_cons.1 h
    simp only [insertIdx]
    split
    · rename_i hab
      refine List.pairwise_cons.2 ⟨fun x hx => ?_, h⟩
      rcases List.mem_cons.1 hx with rfl | hx
      · exact hab
      · exact Nat.le_trans hab (h1 x hx)
    · rename_i hab
      refine List.pairwise_cons.2 ⟨fun x hx => ?_, ih h2⟩
      rcases (mem_insertIdx a l x).1 hx with rfl | hx
      · omega
      · exact h1 x hx

theorem sortIdx_pairwise (l : List Nat) : (sortIdx l).Pairwise (· ≤ ·) := by
  induction l with
  | nil => simp [sortIdx]
  | cons a l ih => exact insertIdx_pairwise a _ ih

theorem mem_sortedIdx (idx : List Nat) (a : Nat) : a ∈ sortedIdx idx ↔ a ∈ idx := by
  simp [sortedIdx, mem_unique, mem_sortIdx]

theorem sortedIdx_pairwise (idx : List Nat) : (sortedIdx idx).Pairwise (· < ·) :=
  unique_pairwise _ (sortIdx_pairwise idx)

theorem countBefore_zero (objs : List (Option (List Attr))) : countBefore objs 0 = 0 := by
  simp [countBefore]

theorem countBefore_cons (p : Option (List Attr)) (objs : List (Option (List Attr))) (i : Nat) :
    countBefore (p :: objs) (i + 1) = (particlesOf p).length + countBefore objs i := by
  simp [countBefore]

/-- What the loop finds. -/
structure LoopSpec (objs : List (Option (List Attr))) (ii : Nat) (it : List Nat) (off : Int)
    (r : Found) : Prop where
  sorted : r.indices.Pairwise (· < ·)
  mem : ∀ i, i ∈ r.indices ↔ i ∈ it ∧ ∃ d ps, i = ii + d ∧ objs[d]? = some (some ps)
  begins : r.begins = r.indices.map fun i => off + (countBefore objs (i - ii) : Int)
  ends : r.ends = r.indices.map fun i => off + (countBefore objs (i - ii + 1) : Int)
  inSets : r.totalInSets =
    ((r.indices.flatMap fun i => particlesOf (objs[i - ii]?.join)).length : Int)
  total : r.total = off + (countBefore objs objs.length : Int)

theorem setLoop_spec (objs : List (Option (List Attr))) (ii : Nat) (it : List Nat) (off : Int)
    (hs : it.Pairwise (· < ·)) (hge : ∀ i ∈ it, ii ≤ i) :
    LoopSpec objs ii it off (setLoop objs ii it off) := by
  induction objs generalizing ii it off with
  | nil =>
    constructor <;> simp [setLoop, countBefore]
  | cons p objs ih =>
    have hs' : (if it.head? = some ii then it.tail else it).Pairwise (· < ·) := by
      split
      · exact hs.tail
      · exact hs
    have hit : ∀ i, i ∈ (if it.head? = some ii then it.tail else it) ↔ i ∈ it ∧ i ≠ ii := by
      intro i
      cases it with
      | nil => simp
      | cons a it =>
        have ha := (List.pairwise_cons.1 hs).1
        have hg := hge a (by simp)
        by_cases h : a = ii
        · subst h
          simp only [List.head?_cons, if_true, List.tail_cons, List.mem_cons]
          constructor
          · intro hi; exact ⟨.inr hi, by have := ha i hi; omega⟩
          · rintro ⟨h1 | h1, h2⟩
            · exact absurd h1 h2
            · exact h1
        · have : ¬ (a :: it).head? = some ii := by simpa using h
          rw [if_neg this]
          constructor
          · intro hi
            refine ⟨hi, ?_⟩
            rcases List.mem_cons.1 hi with rfl | hi
            · exact h
            · have := ha i hi; omega
          · exact fun h => h.1
    have hge' : ∀ i ∈ (if it.head? = some ii then it.tail else it), ii + 1 ≤ i := by
      intro i hi
      obtain ⟨h1, h2⟩ := (hit i).1 hi
      have := hge i h1
      omega
    have hr := ih (ii + 1) _ (off + numParticles p) hs' hge'
    have hhead : it.head? = some ii ↔ ii ∈ it := by
      cases it with
      | nil => simp
      | cons a it =>
        have ha := (List.pairwise_cons.1 hs).1
        have hg := hge a (by simp)
        simp only [List.head?_cons, Option.some.injEq, List.mem_cons]
        constructor
        · exact fun h => .inl h.symm
        · rintro (h | h)
          · exact h.symm
          · have := ha ii h; omega
    simp only [setLoop]
    generalize setLoop objs (ii + 1) (if it.head? = some ii then it.tail else it)
      (off + numParticles p) = r at hr ⊢
    have hgt : ∀ i ∈ r.indices, ii + 1 ≤ i := by
      intro i hi
      obtain ⟨_, d, ps, h, _⟩ := (hr.mem i).1 hi
      omega
    have hb : r.begins = r.indices.map fun i => off + (countBefore (p :: objs) (i - ii) : Int) := by
      rw [hr.begins]
      refine List.map_congr_left fun i hi => ?_
      have := hgt i hi
      rw [show i - ii = (i - (ii + 1)) + 1 by omega, countBefore_cons, numParticles_eq]
      push_cast; omega
    have he : r.ends = r.indices.map fun i =>
        off + (countBefore (p :: objs) (i - ii + 1) : Int) := by
      rw [hr.ends]
      refine List.map_congr_left fun i hi => ?_
      have := hgt i hi
      rw [show i - ii + 1 = (i - (ii + 1) + 1) + 1 by omega, countBefore_cons, numParticles_eq]
      push_cast; omega
    have hin : (r.indices.flatMap fun i => particlesOf ((p :: objs)[i - ii]?.join)) =
        r.indices.flatMap fun i => particlesOf (objs[i - (ii + 1)]?.join) := by
      refine List.flatMap_congr fun i hi => ?_
      have := hgt i hi
      rw [show i - ii = (i - (ii + 1)) + 1 by omega, List.getElem?_cons_succ]
    have htot : r.total = off + (countBefore (p :: objs) (p :: objs).length : Int) := by
      rw [hr.total, List.length_cons, countBefore_cons, numParticles_eq]
      push_cast; omega
    have hmem : ∀ i, i ∈ r.indices ↔ (i ∈ it ∧ i ≠ ii) ∧
        ∃ d ps, i = ii + d ∧ (p :: objs)[d]? = some (some ps) := by
      intro i
      rw [hr.mem, hit]
      refine and_congr_right fun h => ?_
      constructor
      · rintro ⟨d, ps, h1, h2⟩
        exact ⟨d + 1, ps, by omega, by simpa using h2⟩
      · rintro ⟨d, ps, h1, h2⟩
        cases d with
        | zero => exact absurd h1 h.2
        | succ d => exact ⟨d, ps, by omega, by simpa using h2⟩
    by_cases hc : it.head? = some ii ∧ p.isSome = true
    · rw [if_pos hc]
      obtain ⟨ps, hps⟩ := Option.isSome_iff_exists.1 hc.2
      refine ⟨?_, ?_, ?_, ?_, ?_, htot⟩
      · exact List.pairwise_cons.2 ⟨fun i hi => by have := hgt i hi; omega, hr.sorted⟩
      · intro i
        simp only [List.mem_cons]
        constructor
        · rintro (rfl | hi)
          · exact ⟨hhead.1 hc.1, 0, ps, by omega, by simp [hps]⟩
          · obtain ⟨⟨h1, _⟩, h2⟩ := (hmem i).1 hi
            exact ⟨h1, h2⟩
        · rintro ⟨h1, h2⟩
          by_cases h : i = ii
          · exact .inl h
          · exact .inr ((hmem i).2 ⟨⟨h1, h⟩, h2⟩)
      · simp only [List.map_cons, hb]
        simp [countBefore_zero]
      · simp only [List.map_cons, he]
        simp [countBefore_cons, countBefore_zero, numParticles_eq]
      · simp only [List.flatMap_cons, List.length_append, hin, hr.inSets]
        simp [numParticles_eq]
    · rw [if_neg hc]
      refine ⟨hr.sorted, ?_, hb, he, by rw [hin]; exact hr.inSets, htot⟩
      intro i
      rw [hmem]
      constructor
      · rintro ⟨⟨h1, _⟩, h2⟩; exact ⟨h1, h2⟩
      · rintro ⟨h1, d, ps, h2, h3⟩
        refine ⟨⟨h1, ?_⟩, d, ps, h2, h3⟩
        rintro rfl
        have : d = 0 := by omega
        subst this
        exact hc ⟨hhead.2 h1, by simp at h3; simp [h3]⟩

theorem numBlocks_pos {objs : List (Option (List Attr))} {i : Nat} {ps : List Attr}
    (h : objs[i]? = some (some ps)) : 0 < objs.length ∧ 0 < numBlocks objs := by
  have hm : some ps ∈ objs := List.mem_of_getElem? h
  refine ⟨List.length_pos_of_mem hm, List.length_pos_of_mem (a := some ps) ?_⟩
  exact List.mem_filter.2 ⟨hm, rfl⟩

end SixTrack.ParticleSets
