import Verif.CompareParticles
import Verif.CompareLemmas

/-! # Lemmas about comparing particles -/

namespace SixTrack
namespace Cmp
open TrackOpt

/-! ### Bytes -/

theorem bytesOf_inj {a b : Nat} (ha : a < 2 ^ 64) (hb : b < 2 ^ 64) (h : bytesOf a = bytesOf b) :
    a = b := by
  simp only [bytesOf, List.cons.injEq, and_true] at h
  obtain ⟨h0, h1, h2, h3, h4, h5, h6, h7⟩ := h
  have e2 : (256 : Nat) ^ 2 = 65536 := by norm_num
  have e3 : (256 : Nat) ^ 3 = 16777216 := by norm_num
  have e4 : (256 : Nat) ^ 4 = 4294967296 := by norm_num
  have e5 : (256 : Nat) ^ 5 = 1099511627776 := by norm_num
  have e6 : (256 : Nat) ^ 6 = 281474976710656 := by norm_num
  have e7 : (256 : Nat) ^ 7 = 72057594037927936 := by norm_num
  rw [e2] at h2; rw [e3] at h3; rw [e4] at h4; rw [e5] at h5; rw [e6] at h6; rw [e7] at h7
  omega

theorem length_bytesOf (w : Nat) : (bytesOf w).length = 8 := rfl

theorem flatBytes_inj : ∀ (l r : List Nat), (∀ w ∈ l, w < 2 ^ 64) → (∀ w ∈ r, w < 2 ^ 64) →
    l.flatMap bytesOf = r.flatMap bytesOf → l = r := by
  intro l
  induction l with
  | nil =>
    intro r _ _ h
    cases r with
    | nil => rfl
    | cons b r => simp [bytesOf] at h
  | cons a l ih =>
    intro r hl hr h
    cases r with
    | nil => simp [bytesOf] at h
    | cons b r =>
      rw [List.flatMap_cons, List.flatMap_cons] at h
      obtain ⟨h1, h2⟩ := List.append_inj h (by rw [length_bytesOf, length_bytesOf])
      rw [bytesOf_inj (hl a (by simp)) (hr b (by simp)) h1,
        ih r (fun w hw => hl w (by simp [hw])) (fun w hw => hr w (by simp [hw])) h2]

theorem length_flatBytes (l : List Nat) : (l.flatMap bytesOf).length = 8 * l.length := by
  induction l with
  | nil => rfl
  | cons a l ih => rw [List.flatMap_cons, List.length_append, ih, length_bytesOf, List.length_cons]; omega

theorem memcmp_zero : ∀ (l r : List Nat), l.length = r.length → (memcmp l r = 0 ↔ l = r) := by
  intro l
  induction l with
  | nil =>
    intro r h
    cases r with
    | nil => simp [memcmp]
    | cons => simp at h
  | cons a l ih =>
    intro r h
    cases r with
    | nil => simp at h
    | cons b r =>
      rw [memcmp]
      split
      · rename_i hab
        rw [ih r (by simpa using h), hab]; simp
      · rename_i hab
        constructor
        · intro hc; split at hc <;> simp at hc
        · intro hc; injection hc with h1 _; exact absurd h1 hab

theorem wordOf_lt (z : Int) : wordOf z < 2 ^ 64 := by
  unfold wordOf
  have h1 := Int.emod_nonneg z (b := 2 ^ 64) (by norm_num)
  have h2 := Int.emod_lt_of_pos z (b := 2 ^ 64) (by norm_num)
  omega

theorem wordOf_inj {a b : Int} (ha : I64 a) (hb : I64 b) (h : wordOf a = wordOf b) : a = b := by
  unfold wordOf at h
  unfold I64 at ha hb
  have h1 := Int.emod_nonneg a (b := 2 ^ 64) (by norm_num)
  have h2 := Int.emod_nonneg b (b := 2 ^ 64) (by norm_num)
  have h3 : a % 2 ^ 64 = b % 2 ^ 64 := by omega
  norm_num at *
  omega

theorem map_wordOf_inj {l r : List Int} (hl : ∀ z ∈ l, I64 z) (hr : ∀ z ∈ r, I64 z)
    (h : l.map wordOf = r.map wordOf) : l = r := by
  induction l generalizing r with
  | nil => cases r with
    | nil => rfl
    | cons => simp at h
  | cons a l ih => cases r with
    | nil => simp at h
    | cons b r =>
      simp only [List.map_cons, List.cons.injEq] at h
      rw [wordOf_inj (hl a (by simp)) (hr b (by simp)) h.1,
        ih (fun z hz => hl z (by simp [hz])) (fun z hz => hr z (by simp [hz])) h.2]

/-! ### Sequences and chains -/

theorem seqExact_ok (l r : List Nat) (n : Nat) (hn : n ≠ 0) (hl : n ≤ l.length) (hr : n ≤ r.length) :
    seqExact (some l) (some r) n =
      .ok (memcmp ((l.take n).flatMap bytesOf) ((r.take n).flatMap bytesOf)) := by
  simp [seqExact, readN, hn, hl, hr]

theorem seqExact_zero (l r : List Nat) (n : Nat) (hn : n ≠ 0) (hl : n ≤ l.length) (hr : n ≤ r.length)
    (wl : ∀ w ∈ l, w < 2 ^ 64) (wr : ∀ w ∈ r, w < 2 ^ 64) :
    seqExact (some l) (some r) n = .ok 0 ↔ l.take n = r.take n := by
  rw [seqExact_ok l r n hn hl hr, Res.ok_inj, memcmp_zero]
  · constructor
    · intro h
      exact flatBytes_inj _ _ (fun w hw => wl w (List.mem_of_mem_take hw))
        (fun w hw => wr w (List.mem_of_mem_take hw)) h
    · intro h; rw [h]
  · rw [length_flatBytes, length_flatBytes, List.length_take, List.length_take]
    omega

theorem chain_zero {β : Type} (f : β → Res Int) (bs : List β) :
    chain f bs = .ok 0 ↔ ∀ b ∈ bs, f b = .ok 0 := by
  induction bs with
  | nil => simp [chain]
  | cons b bs ih =>
    rw [chain]
    cases hb : f b with
    | ub => simp [hb]
    | ok c =>
      rw [Res.ok_bind]
      by_cases hc : c = 0
      · simp [hc, ih, hb]
      · simp [hc, hb]

theorem chain_ok {β : Type} (f : β → Res Int) (bs : List β) (h : ∀ b ∈ bs, ∃ c, f b = .ok c) :
    ∃ c, chain f bs = .ok c := by
  induction bs with
  | nil => exact ⟨0, rfl⟩
  | cons b bs ih =>
    rw [chain]
    obtain ⟨c, hc⟩ := h b (by simp)
    rw [hc, Res.ok_bind]
    split
    · exact ih (fun x hx => h x (by simp [hx]))
    · exact ⟨c, rfl⟩

theorem realMem (f : RealField) : f ∈ realFields := by cases f <;> decide
theorem indMem (f : IndexField) : f ∈ indexFields := by cases f <;> decide

/-! ### Thresholds -/

theorem thrLoop_zero (R : Rnd) (t : Dbl) : ∀ (l r : List Dbl) (i : Nat),
    (thrLoop R t l r i).1 = 0 ↔
      ∀ (k : Nat) (a b : Dbl), l[k]? = some a → r[k]? = some b → cellOut R t a b = false := by
  intro l
  induction l with
  | nil => intro r i; simp [thrLoop]
  | cons x l ih =>
    intro r i
    cases r with
    | nil => simp [thrLoop]
    | cons y r =>
      rw [thrLoop]
      split
      · rename_i h
        constructor
        · intro hc
          exfalso
          dsimp only at hc
          split at hc <;> cases hc
        · intro hc
          have := hc 0 x y rfl rfl
          rw [this] at h; cases h
      · rename_i h
        rw [ih r (i + 1)]
        constructor
        · intro hc k a b ha hb
          cases k with
          | zero => cases ha; cases hb; simpa using h
          | succ k => exact hc k a b (by simpa using ha) (by simpa using hb)
        · intro hc k a b ha hb
          exact hc (k + 1) a b (by simpa using ha) (by simpa using hb)

theorem thrLoop_first (R : Rnd) (t : Dbl) : ∀ (l r : List Dbl) (i j : Nat),
    (thrLoop R t l r i).2 = some j ↔
      ∃ (k : Nat) (a b : Dbl), j = i + k ∧ l[k]? = some a ∧ r[k]? = some b ∧ cellOut R t a b = true ∧
        ∀ (m : Nat) (x y : Dbl), m < k → l[m]? = some x → r[m]? = some y → cellOut R t x y = false := by
  intro l
  induction l with
  | nil => intro r i j; simp [thrLoop]
  | cons x l ih =>
    intro r i j
    cases r with
    | nil => simp [thrLoop]
    | cons y r =>
      rw [thrLoop]
      split
      · rename_i h
        constructor
        · intro hc
          injection hc with hc
          exact ⟨0, x, y, by omega, rfl, rfl, h, fun m _ _ hm => absurd hm (Nat.not_lt_zero _)⟩
        · rintro ⟨k, a, b, hj, ha, hb, ho, hm⟩
          cases k with
          | zero => rw [hj]; rfl
          | succ k =>
            rw [hm 0 x y (Nat.succ_pos _) rfl rfl] at h; cases h
      · rename_i h
        rw [ih r (i + 1) j]
        constructor
        · rintro ⟨k, a, b, hj, ha, hb, ho, hm⟩
          refine ⟨k + 1, a, b, by omega, by simpa using ha, by simpa using hb, ho, ?_⟩
          intro m u v hmk hu hv
          cases m with
          | zero => cases hu; cases hv; simpa using h
          | succ m => exact hm m u v (by omega) (by simpa using hu) (by simpa using hv)
        · rintro ⟨k, a, b, hj, ha, hb, ho, hm⟩
          cases k with
          | zero => cases ha; cases hb; exact absurd ho h
          | succ k =>
            refine ⟨k, a, b, by omega, by simpa using ha, by simpa using hb, ho, ?_⟩
            intro m u v hmk hu hv
            exact hm (m + 1) u v (by omega) (by simpa using hu) (by simpa using hv)

theorem seqThr_ok (R : Rnd) (t : Dbl) (l r : List Dbl) (n : Nat) (hl : n ≤ l.length) (hr : n ≤ r.length) :
    seqThr R t (some l) (some r) n = .ok (thrLoop R t (l.take n) (r.take n) 0) := by
  simp [seqThr, readN, hl, hr]

/-- What it means to be within the threshold: the difference is not a number or is small. -/
theorem cellOut_iff (R : Rnd) (t a b : Dbl) (ht : t ≠ .nan) :
    cellOut R t a b = false ↔ R.sub a b = .nan ∨ (R.sub a b).abs.le t = true := by
  unfold cellOut
  generalize R.sub a b = d
  by_cases hd : d = .nan
  · subst hd; simp [Dbl.lt, Dbl.le_nan]
  · simp only [hd, false_or]
    have hz : Dbl.zero ≠ .nan := by simp [Dbl.zero]
    cases h : Dbl.zero.le d with
    | true =>
      have h' : d.lt .zero = false := by
        cases hc : d.lt .zero with
        | false => rfl
        | true => rw [(Dbl.not_le hz hd).2 hc] at h; cases h
      rw [h', Dbl.abs_of_nonneg h]
      simp only [Bool.true_and, Bool.false_and, Bool.or_false]
      constructor
      · intro hl
        cases hc : d.le t with
        | true => rfl
        | false => rw [(Dbl.not_le hd ht).1 hc] at hl; cases hl
      · intro hl
        cases hc : t.lt d with
        | false => rfl
        | true => rw [(Dbl.not_le hd ht).2 hc] at hl; cases hl
    | false =>
      have h' := (Dbl.not_le hz hd).1 h
      rw [h']
      have hn : d.neg ≠ .nan := by cases d <;> simp_all [Dbl.neg]
      have ha : d.abs = d.neg := by
        rw [← Dbl.abs_neg]
        refine Dbl.abs_of_nonneg ?_
        cases d with
        | nan => exact absurd rfl hd
        | ninf => rfl
        | pinf => cases h'
        | fin q =>
          have : q < 0 := by simpa [Dbl.lt, Dbl.zero] using h'
          exact Dbl.le_fin.2 (by linarith)
      rw [ha]
      simp only [Bool.false_and, Bool.true_and, Bool.false_or]
      constructor
      · intro hl
        cases hc : d.neg.le t with
        | true => rfl
        | false => rw [(Dbl.not_le hn ht).1 hc] at hl; cases hl
      · intro hl
        cases hc : t.lt d.neg with
        | false => rfl
        | true => rw [(Dbl.not_le hn ht).2 hc] at hl; cases hl

theorem sub_swap {R : Rnd} {rep : Rat → Prop} (g : R.Good rep) (a b : Dbl) :
    R.sub b a = (R.sub a b).neg := by
  cases a <;> cases b <;> first | rfl | (simp only [sub_fin]; exact rd_swap g _ _)

theorem sub_self_cases {R : Rnd} {rep : Rat → Prop} (g : R.Good rep) (a : Dbl) :
    R.sub a a = .nan ∨ R.sub a a = .zero := by
  cases a with
  | fin q => right; rw [sub_fin, sub_self, g.exact 0 g.zero]; rfl
  | _ => left; rfl

/-! ### The largest difference -/

theorem maxStep (d : Dbl) : (if Dbl.zero.lt d then d else d.neg) = d.abs ∨
    (d = .zero ∧ (if Dbl.zero.lt d then d else d.neg) = .zero) ∨ d = .nan := by
  cases d with
  | nan => right; right; rfl
  | ninf => left; rfl
  | pinf => left; rfl
  | fin q =>
    left
    by_cases h : 0 < q
    · simp [Dbl.lt, Dbl.zero, h, Dbl.abs, le_of_lt h]
    · simp only [Dbl.lt, Dbl.zero, h, Dbl.abs, Dbl.neg, decide_false, Bool.false_eq_true, if_false]
      congr 1
      split
      · have : q = 0 := le_antisymm (not_lt.1 h) (by assumption)
        rw [this, neg_zero]
      · rfl

theorem maxStep_abs {d : Dbl} (h : d ≠ .nan) : (if Dbl.zero.lt d then d else d.neg) = d.abs := by
  rcases maxStep d with h' | ⟨h', h''⟩ | h'
  · exact h'
  · rw [h'', h']; rfl
  · exact absurd h' h

theorem abs_not_nan {d : Dbl} (h : d ≠ .nan) : d.abs ≠ .nan := by
  cases d <;> simp_all [Dbl.abs]

/-- What the loop knows after the differences `seen`: the largest absolute value, where it first occurs. -/
structure MaxInv (seen : List Dbl) (st : Dbl × Dbl × Nat) : Prop where
  num : st.1 ≠ .nan
  bound : ∀ d ∈ seen, d.abs.le st.1 = true
  here : (st = (.zero, .zero, 0) ∧ ∀ d ∈ seen, d = .zero) ∨
    (seen[st.2.2]? = some st.2.1 ∧ st.1 = st.2.1.abs ∧ Dbl.zero.lt st.1 = true ∧
      ∀ (i : Nat) (d : Dbl), i < st.2.2 → seen[i]? = some d → d.abs.lt st.1 = true)

theorem abs_eq_zero {d : Dbl} (h : d.abs = .zero) : d = .zero :=
  abs_le_zero (by rw [h]; decide)

theorem maxInv_step {seen : List Dbl} {st : Dbl × Dbl × Nat} (h : MaxInv seen st) {d : Dbl} (hd : d ≠ .nan) :
    MaxInv (seen ++ [d]) (if st.1.lt d.abs then (d.abs, d, seen.length) else st) := by
  have hda := abs_not_nan hd
  have hz : Dbl.zero.le st.1 = true := by
    rcases h.here with ⟨he, _⟩ | ⟨_, _, h3, _⟩
    · rw [he]; decide
    · exact Dbl.le_iff.2 (Or.inl h3)
  split
  · rename_i hlt
    refine ⟨hda, ?_, Or.inr ⟨by simp, rfl, ?_, ?_⟩⟩
    · intro x hx
      rcases List.mem_append.1 hx with hx | hx
      · exact Dbl.le_trans (h.bound x hx) (Dbl.le_iff.2 (Or.inl hlt))
      · rw [List.mem_singleton.1 hx]; exact Dbl.le_refl hda
    · show Dbl.zero.lt d.abs = true
      rcases Dbl.le_iff.1 hz with h' | ⟨h', _⟩
      · exact Dbl.lt_trans h' hlt
      · rw [h']; exact hlt
    · intro i x hi hx
      have hx' : seen[i]? = some x := by
        rw [List.getElem?_append_left hi] at hx; exact hx
      have := h.bound x (List.mem_of_getElem? hx')
      rcases Dbl.le_iff.1 this with h' | ⟨h', _⟩
      · exact Dbl.lt_trans h' hlt
      · show x.abs.lt d.abs = true
        rw [h']; exact hlt
  · rename_i hlt
    have hle : d.abs.le st.1 = true := by
      cases hc : d.abs.le st.1 with
      | true => rfl
      | false => exact absurd ((Dbl.not_le hda h.num).1 hc) hlt
    refine ⟨h.num, ?_, ?_⟩
    · intro x hx
      rcases List.mem_append.1 hx with hx | hx
      · exact h.bound x hx
      · rw [List.mem_singleton.1 hx]; exact hle
    · rcases h.here with ⟨he, ha⟩ | ⟨h1, h2, h3, h4⟩
      · left
        refine ⟨he, fun x hx => ?_⟩
        rcases List.mem_append.1 hx with hx | hx
        · exact ha x hx
        · rw [List.mem_singleton.1 hx]
          rw [he] at hle
          exact abs_le_zero hle
      · right
        obtain ⟨hlen, _⟩ := List.getElem?_eq_some_iff.1 h1
        refine ⟨by rw [List.getElem?_append_left hlen]; exact h1, h2, h3, ?_⟩
        intro i x hi hx
        rw [List.getElem?_append_left (by omega)] at hx
        exact h4 i x hi hx

theorem maxLoop_inv : ∀ (ds seen : List Dbl) (st : Dbl × Dbl × Nat), MaxInv seen st → (∀ d ∈ ds, d ≠ .nan) →
    MaxInv (seen ++ ds) (maxLoop ds seen.length st) := by
  intro ds
  induction ds with
  | nil => intro seen st h _; simpa [maxLoop] using h
  | cons d ds ih =>
    intro seen st h hn
    have hd := hn d (by simp)
    rw [maxLoop]
    rw [maxStep_abs hd]
    have := ih (seen ++ [d]) _ (maxInv_step h hd) (fun x hx => hn x (by simp [hx]))
    rw [List.length_append, List.append_assoc] at this
    exact this

theorem maxLoop_spec (ds : List Dbl) (hn : ∀ d ∈ ds, d ≠ .nan) :
    MaxInv ds (maxLoop ds 0 (.zero, .zero, 0)) := by
  have h0 : MaxInv [] (Dbl.zero, Dbl.zero, 0) :=
    ⟨by simp [Dbl.zero], by simp, Or.inl ⟨rfl, by simp⟩⟩
  simpa using maxLoop_inv ds [] _ h0 hn

theorem maxLoop_nan : ∀ (ds : List Dbl) (i : Nat) (st : Dbl × Dbl × Nat), (∀ d ∈ ds, d = .nan) →
    maxLoop ds i st = st := by
  intro ds
  induction ds with
  | nil => intro i st _; rfl
  | cons d ds ih =>
    intro i st h
    rw [maxLoop, h d (by simp)]
    have : (if st.1.lt (if Dbl.zero.lt .nan then .nan else Dbl.nan.neg) then
        ((if Dbl.zero.lt .nan then .nan else Dbl.nan.neg), .nan, i) else st) = st := by
      rw [if_neg]
      obtain ⟨a, _⟩ := st
      cases a <;> simp [Dbl.lt, Dbl.neg]
    rw [this]
    exact ih (i + 1) st (fun x hx => h x (by simp [hx]))

theorem realDiffs_ok (R : Rnd) (l r : List Dbl) (n : Nat) (hl : n ≤ l.length) (hr : n ≤ r.length) :
    realDiffs R (some l) (some r) n = .ok (List.zipWith R.sub (l.take n) (r.take n)) := by
  simp [realDiffs, readN, hl, hr]

theorem getMaxReal_spec (R : Rnd) (lhs rhs : RealSet) (n : Nat) (hl : ∀ f, n ≤ (lhs f).length)
    (hr : ∀ f, n ≤ (rhs f).length) : ∀ (fs : List RealField) (md : RealSet), fs.Nodup →
    (∀ f, md f ≠ []) →
    ∃ md' : RealSet, getMaxReal R md lhs rhs n fs = .ok md' ∧
      (∀ f, f ∉ fs → md' f = md f) ∧
      ∀ f, f ∈ fs → ∃ d : Dbl × Nat, maxReal R (some (lhs f)) (some (rhs f)) n = .ok d ∧
        md' f = d.1 :: (md f).tail := by
  intro fs
  induction fs with
  | nil => intro md _ _; exact ⟨md, rfl, fun _ _ => rfl, fun _ h => absurd h (by simp)⟩
  | cons f fs ih =>
    intro md hnd hne
    obtain ⟨d, hd⟩ : ∃ d, maxReal R (some (lhs f)) (some (rhs f)) n = .ok d := by
      simp [maxReal, realDiffs_ok R _ _ n (hl f) (hr f)]
    have hs : setFirst d.1 (md f) = .ok (d.1 :: (md f).tail) := by
      cases h : md f with
      | nil => exact absurd h (hne f)
      | cons => rfl
    obtain ⟨md', h1, h2, h3⟩ := ih (fun g => if g = f then d.1 :: (md f).tail else md g)
      (List.nodup_cons.1 hnd).2 (by intro g; split <;> simp [hne])
    refine ⟨md', ?_, ?_, ?_⟩
    · rw [getMaxReal, hd, Res.ok_bind, hs, Res.ok_bind, h1]
    · intro g hg
      have : g ≠ f := fun he => hg (by simp [he])
      rw [h2 g (fun he => hg (by simp [he])), if_neg this]
    · intro g hg
      by_cases hgf : g = f
      · subst hgf
        refine ⟨d, hd, ?_⟩
        rw [h2 g (List.nodup_cons.1 hnd).1, if_pos rfl]
      · obtain ⟨e, he, he'⟩ := h3 g (by simpa [hgf] using hg)
        exact ⟨e, he, by rw [he', if_neg hgf]⟩

/-! ### The largest difference of integers -/

structure IntInv (seen : List Int) (st : Int × Int × Nat) : Prop where
  bound : ∀ d ∈ seen, |d| ≤ st.1
  here : (st = (0, 0, 0) ∧ ∀ d ∈ seen, d = 0) ∨
    (seen[st.2.2]? = some st.2.1 ∧ st.1 = |st.2.1| ∧ 0 < st.1 ∧
      ∀ (i : Nat) (d : Int), i < st.2.2 → seen[i]? = some d → |d| < st.1)

theorem absInt_ok {d : Int} (h : |d| < 2 ^ 63) : absInt d = .ok |d| := by
  unfold absInt
  split
  · rw [abs_of_pos (by assumption)]
  · rw [abs_of_nonpos (by omega)] at h ⊢
    exact i64_ok (by unfold I64; constructor <;> omega)

theorem intInv_step {seen : List Int} {st : Int × Int × Nat} (h : IntInv seen st) (d : Int) :
    IntInv (seen ++ [d]) (if st.1 < |d| then (|d|, d, seen.length) else st) := by
  have hz : 0 ≤ st.1 := by
    rcases h.here with ⟨he, _⟩ | ⟨_, _, h3, _⟩
    · rw [he]
    · omega
  split
  · rename_i hlt
    refine ⟨?_, Or.inr ⟨by simp, rfl, by show 0 < |d|; omega, ?_⟩⟩
    · intro x hx
      show |x| ≤ |d|
      rcases List.mem_append.1 hx with hx | hx
      · have := h.bound x hx; omega
      · rw [List.mem_singleton.1 hx]
    · intro i x hi hx
      rw [List.getElem?_append_left hi] at hx
      have := h.bound x (List.mem_of_getElem? hx)
      show |x| < |d|
      omega
  · rename_i hlt
    refine ⟨?_, ?_⟩
    · intro x hx
      rcases List.mem_append.1 hx with hx | hx
      · exact h.bound x hx
      · rw [List.mem_singleton.1 hx]; omega
    · rcases h.here with ⟨he, ha⟩ | ⟨h1, h2, h3, h4⟩
      · left
        refine ⟨he, fun x hx => ?_⟩
        rcases List.mem_append.1 hx with hx | hx
        · exact ha x hx
        · rw [List.mem_singleton.1 hx]
          rw [he] at hlt
          exact abs_nonpos_iff.1 (not_lt.1 hlt)
      · right
        obtain ⟨hlen, _⟩ := List.getElem?_eq_some_iff.1 h1
        refine ⟨by rw [List.getElem?_append_left hlen]; exact h1, h2, h3, ?_⟩
        intro i x hi hx
        rw [List.getElem?_append_left (by omega)] at hx
        exact h4 i x hi hx

theorem maxIntLoop_inv : ∀ (ds seen : List Int) (st : Int × Int × Nat), IntInv seen st →
    (∀ d ∈ ds, |d| < 2 ^ 63) →
    ∃ st', maxIntLoop ds seen.length st = .ok st' ∧ IntInv (seen ++ ds) st' := by
  intro ds
  induction ds with
  | nil => intro seen st h _; exact ⟨st, rfl, by simpa using h⟩
  | cons d ds ih =>
    intro seen st h hn
    rw [maxIntLoop, absInt_ok (hn d (by simp)), Res.ok_bind]
    have := ih (seen ++ [d]) _ (intInv_step h d) (fun x hx => hn x (by simp [hx]))
    rw [List.length_append, List.append_assoc] at this
    exact this

theorem intDiffs_ok : ∀ (l r : List Int), (∀ (i : Nat) (a b : Int), l[i]? = some a → r[i]? = some b →
    |a - b| < 2 ^ 63) → intDiffs l r = .ok (List.zipWith (· - ·) l r) := by
  intro l
  induction l with
  | nil => intro r _; simp [intDiffs]
  | cons a l ih =>
    intro r h
    cases r with
    | nil => simp [intDiffs]
    | cons b r =>
      have h0 := abs_lt.1 (h 0 a b rfl rfl)
      rw [intDiffs, i64_ok (by unfold I64; constructor <;> omega), Res.ok_bind,
        ih r (fun i x y hx hy => h (i + 1) x y (by simpa using hx) (by simpa using hy)), Res.ok_bind]
      rfl

theorem take_eq_iff {α : Type} (l r : List α) (n : Nat) :
    l.take n = r.take n ↔ ∀ i < n, l[i]? = r[i]? := by
  constructor
  · intro h i hi
    have := congrArg (fun x => x[i]?) h
    simpa [List.getElem?_take, hi] using this
  · intro h
    refine List.ext_getElem? fun i => ?_
    rw [List.getElem?_take, List.getElem?_take]
    split
    · exact h i (by assumption)
    · rfl

theorem sets_ok {V : Type} (a b : PSet V) (h : a.num = b.num) (body : PSet V → PSet V → Res Int) :
    withSets (some a) (some b) body = body a b := by
  simp [withSets, h]

end Cmp
end SixTrack
