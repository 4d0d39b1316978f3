import Verif.JobTrackLemmas

/-! # Helper lemmas about the debug kernels for tracking -/

namespace SixTrack.JobTrack
open Track EBE DebugReg

variable {E C R : Type} {g : Part C → Int × Part C} {ws : Part C → List (Option (Nat × R))} {keep : Prop}

theorem finish_eq {flags : BitVec 64} {s : Status} {m : Mem C R} (hf : ∀ i < 32, flags.getLsbD i = false)
    (hs : s ≠ 0x80000000#32) : finish flags (s, m) = .ok (s, put flags s, m) := by
  unfold finish
  by_cases h : s = 0
  · subst h
    rw [if_neg (by simp)]
    have : put flags 0#32 = flags := by
      apply BitVec.eq_of_getLsbD_eq
      intro i _
      rw [put_bit]
      by_cases hi : i < 32
      · rw [if_pos hi, hf i hi]; simp
      · rw [if_neg hi]
    change Res.ok (0#32, flags, m) = .ok (0#32, put flags 0#32, m)
    rw [this]
  · dsimp only
    rw [if_pos h, storeStatus_eq hs]; rfl

theorem finish_zero {s : Status} {m : Mem C R} (hs : s ≠ 0x80000000#32) :
    finish 0 (s, m) = .ok (s, put 0 s, m) := finish_eq (by simp) hs

theorem flag_bit (b : Bool) (k i : Nat) (hk : k < 32) :
    (flag b k).getLsbD i = (b && decide (i = 32 + k)) := by
  unfold flag MIN_FLAG
  cases b with
  | false => simp
  | true =>
    rw [if_pos rfl, BitVec.getLsbD_shiftLeft]
    have h1 : (0x0000000100000000#64).getLsbD (i - k) = decide (i - k = 32) := by
      have : (0x0000000100000000#64) = BitVec.twoPow 64 32 := by decide
      rw [this, BitVec.getLsbD_twoPow]
      simp [eq_comm]
    rw [h1]
    by_cases hi : i = 32 + k
    · subst hi
      simp; omega
    · have : ¬ (i < 64 ∧ ¬ i < k ∧ i - k = 32) := by omega
      simp [hi]; omega

theorem loop_bits_ne_min {J : Nat → Nat → Prop} {s : Status} {m m' : Mem C R}
    (h : Whole g ws keep J 0 s m m')
    (hmin : ∀ (i j : Nat) (p : Part C), J i j → m.at i j = some p → BitVec.ofInt 32 (g p).1 ≠ 0x80000000#32) :
    s ≠ 0x80000000#32 := by
  intro hs
  have h31 : s.getLsbD 31 = true := by rw [hs]; decide
  rcases (h.status 31).1 h31 with h0 | ⟨i, j, p, hj, hp, hb⟩
  · simp at h0
  · refine hmin i j p hj hp ?_
    apply BitVec.eq_of_getLsbD_eq
    intro t ht
    by_cases h31' : t = 31
    · subst h31'; rw [hb]; decide
    · have hz : (0x80000000#32).getLsbD t = false := by
        have : (0x80000000#32) = BitVec.twoPow 32 31 := by decide
        rw [this, BitVec.getLsbD_twoPow]
        simp; omega
      rw [hz]
      cases hc : (BitVec.ofInt 32 (g p).1).getLsbD t with
      | false => rfl
      | true =>
        have := (h.status t).2 (Or.inr ⟨i, j, p, hj, hp, hc⟩)
        rw [hs, hz] at this
        cases this

theorem sel_mod {k n j : Nat} (hk : k < n) : Sel k n j ↔ j % n = k := by
  unfold Sel
  constructor
  · rintro ⟨h1, h2⟩
    have h3 : j = (j - k) + k := by omega
    rw [h3, Nat.add_mod, h2, Nat.zero_add, Nat.mod_mod, Nat.mod_eq_of_lt hk]
  · intro h
    have h1 := Nat.mod_le j n
    refine ⟨by omega, ?_⟩
    have := Nat.div_add_mod j n
    have h3 : j - k = n * (j / n) := by omega
    rw [h3, Nat.mul_mod_right]

theorem collect_one (reg x : BitVec 64) : collect reg [x] = reg ||| x := by
  unfold collect
  simp only [List.foldl_cons, List.foldl_nil]
  by_cases h : x = 0
  · subst h; simp
  · rw [if_pos h]

theorem put_or (reg : BitVec 64) (a b : Status) :
    (reg ||| put 0 a) ||| put 0 b = reg ||| put 0 (a ||| b) := by
  apply BitVec.eq_of_getLsbD_eq
  intro i _
  simp only [BitVec.getLsbD_or, put_bit]
  by_cases h : i < 32 <;> simp [h, Bool.or_assoc]

theorem Whole.isSet {J : Nat → Nat → Prop} {s s' : Status} {m m' : Mem C R}
    (h : Whole g ws keep J s s' m m') {i : Nat} (hi : ∃ ps, m.objs[i]? = some (some ps)) :
    ∃ ps, m'.objs[i]? = some (some ps) := by
  obtain ⟨ps, hps⟩ := hi
  have := h.shape i
  rw [hps] at this
  cases h1 : m'.objs[i]? with
  | none => rw [h1] at this; cases this
  | some o =>
    cases o with
    | none => rw [h1] at this; cases this
    | some qs => exact ⟨qs, rfl⟩

theorem kernelOn_set {f : One C R} {m : Mem C R} {set : Nat} {ps : List (Part C)}
    (h : m.objs[set]? = some (some ps)) (pidx stride : Int) :
    kernelOn f m set pidx stride = loopSet f m set ps pidx stride := by
  unfold kernelOn; rw [h]

/-- All work-items of a launch. -/
theorem items_whole {f : One C R} {P : Part C → Prop} (hA : Acts f P g ws keep)
    (hmin : ∀ p, P p → BitVec.ofInt 32 (g p).1 ≠ 0x80000000#32) {set n : Nat}
    {K : Nat → Mem C R → Res (Status × BitVec 64 × Mem C R)}
    (hK : ∀ k, k < n → ∀ m : Mem C R, (∃ ps, m.objs[set]? = some (some ps)) →
      K k m = (kernelOn f m set k n).bind (finish 0)) :
    ∀ (ks : List Nat) (reg : BitVec 64) (m : Mem C R), ks.Nodup → (∀ k ∈ ks, k < n) →
      (∃ ps, m.objs[set]? = some (some ps)) →
      (∀ (j : Nat) (p : Part C), j % n ∈ ks → m.at set j = some p → P p) →
      ∃ st m', items K ks reg m = .ok (reg ||| put 0 st, m') ∧
        Whole g ws keep (fun i j => i = set ∧ j % n ∈ ks) 0 st m m'
  | [], reg, m, _, _, _, _ => by
    refine ⟨0, m, ?_, Whole.nothing (fun _ _ h => by simp at h) 0⟩
    have : put 0 (0 : Status) = 0 := by decide
    rw [this]
    simp [items]
  | k :: ks, reg, m, hn, hl, hset, hP => by
    have hn' := List.nodup_cons.1 hn
    have hk : k < n := hl k (by simp)
    have hlen : set < m.objs.length := by
      obtain ⟨ps, hps⟩ := hset
      exact (List.getElem?_eq_some_iff.1 hps).1
    obtain ⟨s1, m1, h1, w1⟩ := kernelOn_whole hA hlen (pidx := (k : Int)) (stride := (n : Int))
      (by omega) (by omega) (fun j p hj hp => hP j p (by
        rw [(sel_mod hk).1 hj]; simp) hp)
    have hJ : ∀ i j, (i = set ∧ Sel (k : Int).toNat (n : Int).toNat j) ↔ (i = set ∧ j % n = k) :=
      fun i j => and_congr_right fun _ => sel_mod hk
    have w1' := w1.congr hJ
    have hs1 : s1 ≠ 0x80000000#32 := loop_bits_ne_min w1' fun i j p hj hp =>
      hmin p (hP j p (by rw [hj.2]; simp) (hj.1 ▸ hp))
    obtain ⟨s2, m2, h2, w2⟩ := items_whole hA hmin hK ks (reg ||| put 0 s1) m1 hn'.2
      (fun x hx => hl x (by simp [hx])) (w1'.isSet hset) (fun j p hj hp => by
        refine hP j p (by simp [hj]) ?_
        rw [← hp]
        refine ((w1'.parts set j).2 ?_).symm
        rintro ⟨-, hj'⟩
        exact hn'.1 (hj' ▸ hj))
    refine ⟨s1 ||| s2, m2, ?_, ((w1'.comp (w2.or s1) ?_).congr ?_)⟩
    · unfold items
      rw [hK k hk m hset, h1]
      simp only [Res.bind]
      rw [finish_zero hs1]
      change items K ks (collect reg [put 0 s1]) m1 = _
      rw [collect_one, h2, put_or]
    · rintro i j ⟨-, hj⟩ ⟨-, hj'⟩
      exact hn'.1 (hj ▸ hj')
    · intro i j
      simp only [List.mem_cons]
      constructor
      · rintro (⟨h, h'⟩ | ⟨h, h'⟩)
        · exact ⟨h, Or.inl h'⟩
        · exact ⟨h, Or.inr h'⟩
      · rintro ⟨h, h' | h'⟩
        · exact Or.inl ⟨h, h'⟩
        · exact Or.inr ⟨h, h'⟩

end SixTrack.JobTrack
