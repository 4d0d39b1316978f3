import Verif.CompareElementsLemmas

/-!
# C85: comparing beam elements and lines

The functions the tests use to decide whether beam elements agree.  For most kinds the result is zero exactly
if the elements have the same attributes (or attributes within the threshold).  The exceptions are stated one
by one.
-/

namespace SixTrack
open Cmp

/-- **C85** (`BeamElements_compare_objects`, all kinds but `LimitRectEllipse` and `SCQGaussProfile`): for two
elements without a NaN the comparison ends, gives `-1`, `0` or `+1`, gives zero exactly if the elements are of
the same kind and have the same attributes, and gives the opposite if the elements are exchanged. -/
theorem C85_exact_partial {R : Rnd} {rep : Rat → Prop} (g : R.Good rep) (l r : BObj) (hl : l.addr ≠ 0)
    (hr : r.addr ≠ 0) (hs : l.addr = r.addr → l.elem = r.elem) (wl : l.elem.Wf (Held rep))
    (wr : r.elem.Wf (Held rep)) (hk : l.elem.kind ≠ .limitRectEllipse) (hq : l.elem.kind ≠ .scQGauss)
    (hp : ∀ x p q, .prof x p ∈ l.elem.attrs → .prof x q ∈ r.elem.attrs → p = q) :
    ∃ s : Int, compareObjects R l r = .ok s ∧ compareObjects R r l = .ok (-s) ∧
      (s = 0 ↔ l.elem.kind = r.elem.kind ∧
        List.Forall₂ (Attr.same (· = ·)) l.elem.attrs r.elem.attrs) ∧
      (s = 0 ∨ s = 1 ∨ s = -1) := by
  have hn : NumCmp (l.elem.kind.exactCmp R) (Held rep) (· = ·) := by
    have hv : NumCmp valueResult (Held rep) (· = ·) := numCmp_value.mono fun _ h => h.1
    cases l.elem.kind <;> first | exact hv | exact numCmp_testLib g
  refine anti_objects hl hr (fun ha => ?_) (fun h => by rw [h.1]) (fun ht => ?_)
  · refine ⟨by rw [hs ha], ?_⟩
    rw [← hs ha]
    have : ∀ as : List Attr, (∀ a ∈ as, a.ok (Held rep)) → List.Forall₂ (Attr.same (· = ·)) as as := by
      intro as
      induction as with
      | nil => intro _; exact .nil
      | cons a as ih =>
        intro h
        exact .cons (Attr.same_refl hn (h a (by simp))) (ih fun x hx => h x (by simp [hx]))
    exact this _ wl.nums
  · have he := typeId_inj ht
    have hkk : l.elem.kind.listed = true := by
      revert hk; cases l.elem.kind <;> simp [Kind.listed]
    have e1 : l.elem.exactAttrs = l.elem.attrs := by
      unfold BElem.exactAttrs; revert hq; cases l.elem.kind <;> simp
    have e2 : r.elem.exactAttrs = r.elem.attrs := by
      unfold BElem.exactAttrs; rw [he] at hq; revert hq; cases r.elem.kind <;> simp
    rw [if_pos hkk, if_pos (by rw [← he]; exact hkk)]
    unfold elemCompare
    rw [e1, e2, ← he]
    refine (anti_elem hn he wl wr (fun hd => ?_) hp).congr (by simp)
    rcases hd with hd | hd
    · rw [hd]; exact fun a b hab ha hb => bbLoop_range a b hab (fun x hx => (ha x hx).1) (fun x hx => (hb x hx).1)
    · rw [hd]; exact fun a b hab ha hb => bbLoop_range a b hab (fun x hx => (ha x hx).1) (fun x hx => (hb x hx).1)

/-- A multipole of order one. -/
def cmpMultipole (k : Rat) : BElem :=
  ⟨.multipole, [.int 1, .real (.fin 0), .real (.fin 0), .real (.fin 0),
    .arr [.fin 0, .fin 0, .fin k, .fin 0]]⟩

theorem cmpMultipole_wf {D : Dbl → Prop} (k : Rat) (h0 : D (.fin 0)) (hk : D (.fin k)) :
    (cmpMultipole k).Wf D where
  tags := rfl
  nums := by simp [cmpMultipole, Attr.ok, h0, hk]
  order := by
    intro n as x h hx
    unfold cmpMultipole at h
    injection h with h1 h2
    injection h1 with h1
    subst h1 h2
    simp only [List.mem_cons, List.not_mem_nil, or_false, reduceCtorEq, false_or] at hx
    injection hx with hx
    subst hx
    rfl

theorem cmpRep_small (q : Rat) (h1 : -4 ≤ q) (h2 : q ≤ 4) : cmpRep q := by
  have h : (4 : Rat) ≤ 2 ^ 1024 :=
    le_trans (by norm_num : (4 : Rat) ≤ 2 ^ 2) (pow_le_pow_right₀ (by norm_num) (by norm_num))
  exact ⟨le_trans (neg_le_neg h) h1, le_trans h2 h⟩

theorem cmpHeld_small (q : Rat) (h1 : -4 ≤ q) (h2 : q ≤ 4) : Held cmpRep (.fin q) :=
  ⟨by simp, fun p hp => by injection hp with hp; subst hp; exact cmpRep_small q h1 h2⟩

example : ∃ l r : BObj, l.addr ≠ 0 ∧ r.addr ≠ 0 ∧ l.addr ≠ r.addr ∧ l.elem.Wf (Held cmpRep) ∧
    r.elem.Wf (Held cmpRep) ∧ compareObjects cmpRnd l r = .ok (-1) ∧ compareObjects cmpRnd l ⟨3, l.elem⟩ = .ok 0 :=
  ⟨⟨1, cmpMultipole 2⟩, ⟨2, cmpMultipole 3⟩, by decide, by decide, by decide,
    cmpMultipole_wf 2 (cmpHeld_small 0 (by norm_num) (by norm_num)) (cmpHeld_small 2 (by norm_num) (by norm_num)),
    cmpMultipole_wf 3 (cmpHeld_small 0 (by norm_num) (by norm_num)) (cmpHeld_small 3 (by norm_num) (by norm_num)),
    by decide, by decide⟩

/-- The kinds that `BeamElements_compare_objects_with_treshold` compares with the threshold. -/
def usesThr (k : Kind) : Prop :=
  k ≠ .limitRectEllipse ∧ k ≠ .scInterpolated ∧ k ≠ .scCoasting ∧ k ≠ .scQGauss

/-- **C85** (`BeamElements_compare_objects_with_treshold`): for two elements without NaN or infinity the
comparison ends, gives zero exactly if the elements are of the same kind, their integers are the same and
their numbers differ at most by the threshold, and gives the opposite if the elements are exchanged. -/
theorem C85_threshold_partial {R : Rnd} {rep : Rat → Prop} (g : R.Good rep) (t : Rat) (ht : rep t)
    (h0 : 0 ≤ t) (l r : BObj) (hl : l.addr ≠ 0)
    (hr : r.addr ≠ 0) (hs : l.addr = r.addr → l.elem = r.elem) (wl : l.elem.Wf Finite)
    (wr : r.elem.Wf Finite) (hk : usesThr l.elem.kind) :
    ∃ s : Int, compareObjectsThr R (.fin t) l r = .ok s ∧ compareObjectsThr R (.fin t) r l = .ok (-s) ∧
      (s = 0 ↔ l.elem.kind = r.elem.kind ∧
        List.Forall₂ (Attr.same fun a b => (R.sub a b).abs.le (.fin t) = true)
          l.elem.attrs r.elem.attrs) ∧
      (s = 0 ∨ s = 1 ∨ s = -1) := by
  have hn : NumCmp (l.elem.kind.thrCmp R (.fin t)) Finite
      (fun a b => (R.sub a b).abs.le (.fin t) = true) := by
    have hv := numCmp_tol g t ht h0
    have hw := numCmp_testLib_thr g t ht h0
    cases l.elem.kind <;> first | exact hv | exact hw
  refine anti_objects hl hr (fun ha => ?_) (fun h => by rw [h.1]) (fun htt => ?_)
  · refine ⟨by rw [hs ha], ?_⟩
    rw [← hs ha]
    have : ∀ as : List Attr, (∀ a ∈ as, a.ok Finite) →
        List.Forall₂ (Attr.same fun a b => (R.sub a b).abs.le (.fin t) = true) as as := by
      intro as
      induction as with
      | nil => intro _; exact .nil
      | cons a as ih =>
        intro h
        exact .cons (Attr.same_refl hn (h a (by simp))) (ih fun x hx => h x (by simp [hx]))
    exact this _ wl.nums
  · have he := typeId_inj htt
    have hkk : l.elem.kind.listedThr = true := by
      revert hk; cases l.elem.kind <;> simp [Kind.listedThr, usesThr]
    have hz : Dbl.zero.le (.fin t) = true := Dbl.le_fin.2 h0
    have hp : ∀ x p q, .prof x p ∈ l.elem.attrs → .prof x q ∈ r.elem.attrs → p = q := by
      intro x p q hx _
      have := wl.tag_mem hx
      revert this hk
      cases l.elem.kind <;> simp [usesThr, Kind.fields, Attr.tag]
    have hc : ∀ e f : BElem, elemCompareThr R (.fin t) e f =
        lex (e.kind.thrCmp R (.fin t)) (bbThrLoop R (.fin t)) e.attrs f.attrs := by
      intro e f
      unfold elemCompareThr
      rw [hz, if_neg (by simp)]
    have main := anti_elem (loop := bbThrLoop R (.fin t)) hn he wl wr (fun hd => by
      rcases hd with hd | hd <;> rw [hd] <;> exact bbThrLoop_range g t ht h0) hp
    rw [if_pos hkk, if_pos (by rw [← he]; exact hkk)]
    by_cases hd : l.elem.kind = .driftExact
    · have e1 : elemThr R (.fin t) l.elem r.elem = elemCompareThr R (.fin t) r.elem l.elem := by
        unfold elemThr; rw [hd]
      have e2 : elemThr R (.fin t) r.elem l.elem = elemCompareThr R (.fin t) l.elem r.elem := by
        unfold elemThr; rw [← he, hd]
      rw [e1, e2, hc, hc, ← he]
      exact main.swap.congr (by simp)
    · have e1 : elemThr R (.fin t) l.elem r.elem = elemCompareThr R (.fin t) l.elem r.elem := by
        unfold elemThr; revert hk hd; cases l.elem.kind <;> simp [usesThr]
      have e2 : elemThr R (.fin t) r.elem l.elem = elemCompareThr R (.fin t) r.elem l.elem := by
        unfold elemThr; rw [he] at hk hd; revert hk hd; cases r.elem.kind <;> simp [usesThr]
      rw [e1, e2, hc, hc, ← he]
      exact main.congr (by simp)

example : ∃ l r : BObj, l.addr ≠ 0 ∧ r.addr ≠ 0 ∧ l.addr ≠ r.addr ∧ l.elem.Wf Finite ∧
    r.elem.Wf Finite ∧ usesThr l.elem.kind ∧ cmpRep 1 ∧
    compareObjectsThr cmpRnd (.fin 1) l r = .ok 0 ∧ compareObjectsThr cmpRnd (.fin (1 / 2)) l r = .ok (-1) :=
  ⟨⟨1, cmpMultipole 2⟩, ⟨2, cmpMultipole 3⟩, by decide, by decide, by decide,
    cmpMultipole_wf 2 ⟨_, rfl⟩ ⟨_, rfl⟩, cmpMultipole_wf 3 ⟨_, rfl⟩ ⟨_, rfl⟩, by simp [usesThr, cmpMultipole],
    cmpRep_small 1 (by norm_num) (by norm_num), by decide +kernel, by decide +kernel⟩

/-- The kinds for which the sign of the result is reversed. -/
def reversed (k : Kind) : Prop := k = .dipoleEdge ∨ k = .tricub

/-- **C85**: if two elements of the same kind have the same attributes up to a number that differs, then the
result of the exact comparison says which number is larger: for most kinds `+1` means the left one, for a
dipole edge and a `TriCub` it means the right one. -/
theorem C85_sign {R : Rnd} {rep : Rat → Prop} (g : R.Good rep) (k : Kind) (hk : k ≠ .limitRectEllipse)
    (hq : k ≠ .scQGauss) (a b : Nat) (ha : a ≠ 0) (hb : b ≠ 0) (hab : a ≠ b) (as bs as' bs' : List Attr)
    (x y : Dbl) (hx : Held rep x) (hy : Held rep y) (hxy : x ≠ y)
    (oa : ∀ v ∈ as, v.ok (Held rep)) (ob : ∀ v ∈ bs, v.ok (Held rep))
    (hd : ∀ v, .data v ∉ as) (hs : List.Forall₂ (Attr.same (· = ·)) as bs) :
    (¬ reversed k → compareObjects R ⟨a, k, as ++ .real x :: as'⟩ ⟨b, k, bs ++ .real y :: bs'⟩ =
      .ok (if y.lt x then 1 else -1)) ∧
    (reversed k → compareObjects R ⟨a, k, as ++ .real x :: as'⟩ ⟨b, k, bs ++ .real y :: bs'⟩ =
      .ok (if y.lt x then -1 else 1)) := by
  have hn : NumCmp (k.exactCmp R) (Held rep) (· = ·) := by
    have hv : NumCmp valueResult (Held rep) (· = ·) := numCmp_value.mono fun _ h => h.1
    cases k <;> first | exact hv | exact numCmp_testLib g
  have hkk : k.listed = true := by revert hk; cases k <;> simp [Kind.listed]
  have key : compareObjects R ⟨a, k, as ++ .real x :: as'⟩ ⟨b, k, bs ++ .real y :: bs'⟩ =
      .ok (k.exactCmp R x y) := by
    unfold compareObjects objects
    rw [if_pos rfl, if_pos ⟨ha, hb, hab⟩]
    dsimp only
    rw [if_pos hkk]
    have e : ∀ ys, (⟨k, ys⟩ : BElem).exactAttrs = ys := by
      intro ys; unfold BElem.exactAttrs; revert hq; cases k <;> simp
    unfold elemCompare
    rw [e, e, lex_skip _ _ _ _ _ _ (lex_same_zero hn as bs (fun ⟨v, hv⟩ => absurd hv (hd v)) oa ob hs)]
    show lex (k.exactCmp R) bbLoop _ _ = _
    rw [lex]
    show ((Res.ok (k.exactCmp R x y)) >>= _) = _
    rw [Res.ok_bind, if_neg (fun h => hxy ((hn.zero x y hx hy).1 h))]
    rfl
  have hval : valueResult x y = if y.lt x then 1 else -1 := by
    unfold valueResult
    have : equal x y = false := by
      cases he : equal x y with
      | false => rfl
      | true => exact absurd (Dbl.eq_iff.1 he).1 hxy
    rw [this]; rfl
  constructor
  · intro hr
    rw [key]
    congr 1
    rw [← hval]
    revert hr; cases k <;> simp [reversed, Kind.exactCmp]
  · intro hr
    rw [key]
    congr 1
    have : k.exactCmp R x y = testLib R .zero x y := by
      rcases hr with rfl | rfl <;> rfl
    rw [this, testLib_zero g x y hx hy, hval]
    split <;> rfl

example : ∃ (as : List Attr) (x y : Dbl), x ≠ y ∧ Held cmpRep x ∧ Held cmpRep y ∧ (∀ v ∈ as, v.ok (Held cmpRep)) ∧
    (∀ v, .data v ∉ as) ∧ List.Forall₂ (Attr.same (· = ·)) as as ∧ as ≠ [] :=
  ⟨[.int 1], .fin 1, .pinf, by decide, cmpHeld_small 1 (by norm_num) (by norm_num),
    ⟨by simp, by simp⟩, by simp [Attr.ok], by simp, .cons rfl .nil, by simp⟩

/-! ### Lines -/

/-- **C85** (`BeamElements_compare_lines`, also with a threshold): for lines that are not empty the result is
zero exactly if the right line is at least as long as the left one and all objects of the left line agree with
the ones at the same place on the right. -/
theorem C85_line_partial (cmp : BObj → BObj → Res Int) (lhs rhs : List BObj) (hne : lhs ≠ []) :
    compareLines cmp lhs rhs = .ok 0 ↔ lhs.length ≤ rhs.length ∧
      ∀ (i : Nat) (x y : BObj), lhs[i]? = some x → rhs[i]? = some y → cmp x y = .ok 0 := by
  have key : ∀ (l r : List BObj) (c : Int), (l = [] → c = 0) → (lineLoop cmp l r c = .ok 0 ↔
      l.length ≤ r.length ∧ ∀ (i : Nat) (x y : BObj), l[i]? = some x → r[i]? = some y → cmp x y = .ok 0) := by
    intro l
    induction l with
    | nil => intro r c hc; simp [lineLoop, hc rfl]
    | cons a l ih =>
      intro r c _
      cases r with
      | nil => simp [lineLoop]
      | cons b r =>
        rw [lineLoop]
        cases hab : cmp a b with
        | ub =>
          rw [Res.ub_bind]
          constructor
          · intro h; cases h
          · intro h; have := h.2 0 a b rfl rfl; rw [hab] at this; cases this
        | ok s =>
          rw [Res.ok_bind]
          by_cases hs : s = 0
          · subst hs
            rw [if_pos rfl, ih r 0 (fun _ => rfl)]
            constructor
            · rintro ⟨h1, h2⟩
              refine ⟨by simpa using h1, ?_⟩
              intro i x y hx hy
              cases i with
              | zero =>
                simp only [List.getElem?_cons_zero, Option.some.injEq] at hx hy
                subst hx hy; exact hab
              | succ i => exact h2 i x y (by simpa using hx) (by simpa using hy)
            · rintro ⟨h1, h2⟩
              exact ⟨by simpa using h1, fun i x y hx hy => h2 (i + 1) x y (by simpa using hx) (by simpa using hy)⟩
          · rw [if_neg hs]
            constructor
            · intro h; exact absurd ((Res.ok_inj _ _).1 h) hs
            · intro h
              have := h.2 0 a b rfl rfl
              rw [hab] at this
              exact absurd ((Res.ok_inj _ _).1 this) hs
  exact key lhs rhs (-1) (fun h => absurd h hne)

/-- **C85**: a result other than zero is that of the first two objects that differ. -/
theorem C85_line_first (cmp : BObj → BObj → Res Int) (l r l' r' : List BObj) (a b : BObj) (s : Int)
    (hlen : l.length = r.length)
    (he : ∀ (i : Nat) (x y : BObj), l[i]? = some x → r[i]? = some y → cmp x y = .ok 0)
    (hab : cmp a b = .ok s) (hs : s ≠ 0) :
    compareLines cmp (l ++ a :: l') (r ++ b :: r') = .ok s := by
  have key : ∀ (l r : List BObj) (c : Int), l.length = r.length →
      (∀ (i : Nat) (x y : BObj), l[i]? = some x → r[i]? = some y → cmp x y = .ok 0) →
      lineLoop cmp (l ++ a :: l') (r ++ b :: r') c = .ok s := by
    intro l
    induction l with
    | nil =>
      intro r c hl _
      cases r with
      | nil => simp only [List.nil_append, lineLoop, hab, Res.ok_bind, if_neg hs]; rfl
      | cons _ _ => simp at hl
    | cons x l ih =>
      intro r c hl h
      cases r with
      | nil => simp at hl
      | cons y r =>
        rw [List.cons_append, List.cons_append, lineLoop, h 0 x y rfl rfl, Res.ok_bind, if_pos rfl]
        exact ih r 0 (by simpa using hl) fun i u v hu hv => h (i + 1) u v (by simpa using hu) (by simpa using hv)
  exact key l r (-1) hlen he

/-- Empty lines differ (also a line from itself); a line agrees with every longer one that begins with it, but
the longer one compared with it is read beyond the end. -/
theorem C85_line_violated (cmp : BObj → BObj → Res Int) (l r : List BObj) (x : BObj) (hl : l ≠ [])
    (he : ∀ o, cmp o o = .ok 0) :
    compareLines cmp [] r = .ok (-1) ∧ compareLines cmp l (l ++ [x]) = .ok 0 ∧
      compareLines cmp (l ++ [x]) l = .ub := by
  refine ⟨rfl, (C85_line_partial cmp _ _ hl).2 ⟨by simp, ?_⟩, ?_⟩
  · intro i u v hu hv
    have hi : i < l.length := by
      by_contra h
      rw [List.getElem?_eq_none (by omega)] at hu; cases hu
    rw [List.getElem?_append_left hi, hu] at hv
    cases hv; exact he u
  · have : ∀ (l : List BObj) (c : Int), lineLoop cmp (l ++ [x]) l c = .ub := by
      intro l
      induction l with
      | nil => intro c; rfl
      | cons a l ih => intro c; rw [List.cons_append, lineLoop, he a, Res.ok_bind, if_pos rfl]; exact ih 0
    exact this l (-1)

example : compareLines (compareObjects cmpRnd) [⟨1, cmpMultipole 2⟩] [⟨2, cmpMultipole 2⟩, ⟨3, cmpMultipole 4⟩] =
    .ok 0 ∧
    compareLines (compareObjects cmpRnd) [⟨1, cmpMultipole 2⟩, ⟨3, cmpMultipole 4⟩]
      [⟨2, cmpMultipole 2⟩, ⟨4, cmpMultipole 2⟩] = .ok 1 ∧
    compareObjects cmpRnd ⟨1, cmpMultipole 2⟩ ⟨1, cmpMultipole 2⟩ = .ok 0 := by decide

/-! ### What the comparisons get wrong -/

/-- Two `SCQGaussProfile` elements that differ in `min_sigma_diff` are equal for the exact comparison. -/
theorem C85_qgauss_violated (R : Rnd) (a b : Nat) (ha : a ≠ 0) (hb : b ≠ 0) (as bs : List Attr)
    (x y : Dbl) (hlen : as.length = 7)
    (ok : ∀ v ∈ as ++ bs, v.ok NotNan) :
    compareObjects R ⟨a, .scQGauss, as ++ .real x :: bs⟩ ⟨b, .scQGauss, as ++ .real y :: bs⟩ = .ok 0 := by
  unfold compareObjects objects
  rw [if_pos rfl]
  by_cases hab : a = b
  · subst hab; simp [ha]
  · have e : ∀ z, (as ++ Attr.real z :: bs).eraseIdx 7 = as ++ bs := by
      intro z
      rw [List.eraseIdx_append_of_length_le (by omega), hlen]
      rfl
    rw [if_pos ⟨ha, hb, hab⟩]
    show lex valueResult bbLoop ((as ++ .real x :: bs).eraseIdx 7) ((as ++ .real y :: bs).eraseIdx 7) = _
    rw [e, e]
    refine lex_same_zero numCmp_value _ _ (fun _ => bbLoop_range) ok ok ?_
    have : ∀ as : List Attr, (∀ a ∈ as, a.ok NotNan) → List.Forall₂ (Attr.same (· = ·)) as as := by
      intro as
      induction as with
      | nil => intro _; exact .nil
      | cons a as ih =>
        intro h
        exact .cons (Attr.same_refl numCmp_value (h a (by simp))) (ih fun x hx => h x (by simp [hx]))
    exact this _ ok

example : ∃ as bs : List Attr, as.length = 7 ∧ (⟨.scQGauss, as ++ .real (.fin 2) :: bs⟩ : BElem).Wf NotNan ∧
    ∀ v ∈ as ++ bs, v.ok NotNan :=
  ⟨List.replicate 7 (.real (.fin 1)), [.real (.fin 1), .real (.fin 1), .int 1], rfl,
    ⟨rfl, by simp [Attr.ok, NotNan, List.replicate], by
      intro n as x h; simp [List.replicate] at h⟩, by simp [Attr.ok, NotNan, List.replicate]⟩

/-- A `LimitRectEllipse` differs from its copy, in both orders, and so does an `SCInterpolatedProfile` if there
is a threshold. -/
theorem C85_missing_violated (R : Rnd) (t : Dbl) (a b : Nat) (ha : a ≠ 0) (hb : b ≠ 0) (hab : a ≠ b)
    (as : List Attr) :
    compareObjects R ⟨a, .limitRectEllipse, as⟩ ⟨b, .limitRectEllipse, as⟩ = .ok (-1) ∧
    compareObjectsThr R t ⟨a, .limitRectEllipse, as⟩ ⟨b, .limitRectEllipse, as⟩ = .ok (-1) ∧
    compareObjectsThr R t ⟨a, .scInterpolated, as⟩ ⟨b, .scInterpolated, as⟩ = .ok (-1) := by
  refine ⟨?_, ?_, ?_⟩ <;>
  · simp only [compareObjects, compareObjectsThr, objects, if_true]
    rw [if_pos ⟨ha, hb, hab⟩]
    rfl

example : ((1 : Nat) ≠ 0) ∧ ((2 : Nat) ≠ 0) ∧ (1 : Nat) ≠ 2 := by decide

/-- The threshold is not used for `SCCoasting` and `SCQGaussProfile`. -/
theorem C85_space_charge_violated (R : Rnd) (t : Dbl) (l r : BObj)
    (hk : l.elem.kind = .scCoasting ∨ l.elem.kind = .scQGauss) :
    compareObjectsThr R t l r = compareObjects R l r := by
  unfold compareObjectsThr compareObjects objects
  rcases hk with hk | hk <;> simp only [elemThr, hk] <;> rfl

example : compareObjectsThr cmpRnd (.fin 4)
    ⟨1, .scCoasting, List.replicate 8 (.real (.fin 1)) ++ [.int 1]⟩
    ⟨2, .scCoasting, List.replicate 8 (.real (.fin 2)) ++ [.int 1]⟩ = .ok (-1) := by decide

/-- With a threshold the sign of the result for two exact drifts is the opposite of the one for two drifts. -/
theorem C85_drift_exact_violated {R : Rnd} {rep : Rat → Prop} (g : R.Good rep) (t : Rat) (ht : rep t)
    (h0 : 0 ≤ t) (a b : Nat) (ha : a ≠ 0) (hb : b ≠ 0) (hab : a ≠ b) (x y : Rat) (hxy : x < y)
    (hd : (R.rd (x - y)).abs.le (.fin t) = false) :
    compareObjectsThr R (.fin t) ⟨a, .drift, [.real (.fin x)]⟩ ⟨b, .drift, [.real (.fin y)]⟩ = .ok (-1) ∧
    compareObjectsThr R (.fin t) ⟨a, .driftExact, [.real (.fin x)]⟩ ⟨b, .driftExact, [.real (.fin y)]⟩ =
      .ok 1 := by
  have h1 : valueResultTol R .zero (.fin t) (.fin x) (.fin y) = -1 := by
    rw [tol_one g t ht x y (by rw [hd]; simp), if_neg (by linarith)]
  have h2 : valueResultTol R .zero (.fin t) (.fin y) (.fin x) = 1 := by
    rw [(C83_close_sign R rep g x y t ht h0).2.2, h1]; rfl
  constructor
  · unfold compareObjectsThr objects
    rw [if_pos rfl, if_pos ⟨ha, hb, hab⟩]
    show lex (valueResultTol R .zero (.fin t)) _ [.real (.fin x)] [.real (.fin y)] = _
    simp only [lex, attrCompare, h1, Res.ok_bind]; rfl
  · unfold compareObjectsThr objects
    rw [if_pos rfl, if_pos ⟨ha, hb, hab⟩]
    show lex (valueResultTol R .zero (.fin t)) _ [.real (.fin y)] [.real (.fin x)] = _
    simp only [lex, attrCompare, h2, Res.ok_bind]; rfl

example : (cmpRnd.rd (1 - 3)).abs.le (.fin 1) = false := by decide +kernel

/-- A drift whose length is a NaN differs from its copy; two beam-beam elements are equal if one of them holds
nothing but NaN, with or without a threshold. -/
theorem C85_nan_violated (R : Rnd) (t : Dbl) (a b : Nat) (ha : a ≠ 0) (hb : b ≠ 0) (hab : a ≠ b)
    (l : List Dbl) :
    compareObjects R ⟨a, .drift, [.real .nan]⟩ ⟨b, .drift, [.real .nan]⟩ = .ok (-1) ∧
    compareObjects R ⟨a, .beamBeam4d, [.data (some (List.replicate l.length .nan))]⟩
      ⟨b, .beamBeam4d, [.data (some l)]⟩ = .ok 0 ∧
    compareObjectsThr R t ⟨a, .beamBeam4d, [.data (some (List.replicate l.length .nan))]⟩
      ⟨b, .beamBeam4d, [.data (some l)]⟩ = .ok 0 := by
  have h1 : ∀ l : List Dbl, bbLoop (List.replicate l.length .nan) l = 0 := by
    intro l
    induction l with
    | nil => rfl
    | cons x l ih =>
      simp only [List.length_cons, List.replicate_succ, bbLoop, ih]
      cases x <;> rfl
  have hlt : t.lt .nan = false := by cases t <;> rfl
  have h2 : ∀ l : List Dbl, bbThrLoop R t (List.replicate l.length .nan) l = 0 := by
    intro l
    induction l with
    | nil => rfl
    | cons x l ih =>
      have : R.sub .nan x = .nan := by cases x <;> rfl
      simp only [List.length_cons, List.replicate_succ, bbThrLoop, ih, this]
      show (if t.lt (if Dbl.zero.le .nan = true then .nan else .nan) = true then _ else _) = _
      simp [hlt]
  refine ⟨?_, ?_, ?_⟩
  · unfold compareObjects objects
    rw [if_pos rfl, if_pos ⟨ha, hb, hab⟩]; rfl
  · unfold compareObjects objects
    rw [if_pos rfl, if_pos ⟨ha, hb, hab⟩]
    show lex valueResult bbLoop [.data (some _)] [.data (some l)] = _
    simp [lex, attrCompare, bbCompare, h1, Res.ok_bind]
  · unfold compareObjectsThr objects
    rw [if_pos rfl, if_pos ⟨ha, hb, hab⟩]
    have : elemThr R t ⟨.beamBeam4d, [.data (some (List.replicate l.length .nan))]⟩
        ⟨.beamBeam4d, [.data (some l)]⟩ = lex (valueResultTol R .zero t) (bbThrLoop R t)
          [.data (some (List.replicate l.length .nan))] [.data (some l)] := rfl
    dsimp only
    rw [if_pos (show Kind.listedThr .beamBeam4d = true from rfl), this]
    simp [lex, attrCompare, bbCompare, h2, Res.ok_bind]

/-- With a threshold an aperture with an infinite bound differs from its copy. -/
theorem C85_infinite_violated {R : Rnd} (t : Dbl) (a b : Nat) (ha : a ≠ 0) (hb : b ≠ 0) (hab : a ≠ b)
    (as : List Attr) :
    compareObjects R ⟨a, .limitRect, .real .pinf :: as⟩ ⟨b, .limitRect, .real .pinf :: as⟩ =
      lex valueResult bbLoop as as ∧
    compareObjectsThr R t ⟨a, .limitRect, .real .pinf :: as⟩ ⟨b, .limitRect, .real .pinf :: as⟩ = .ok (-1) := by
  have h : valueResultTol R .zero t .pinf .pinf = -1 := (C83_infinite_violated R .zero t).2
  constructor
  · unfold compareObjects objects
    rw [if_pos rfl, if_pos ⟨ha, hb, hab⟩]
    show lex valueResult bbLoop (.real .pinf :: as) (.real .pinf :: as) = _
    rw [lex]; rfl
  · unfold compareObjectsThr objects
    rw [if_pos rfl, if_pos ⟨ha, hb, hab⟩]
    show lex (valueResultTol R .zero t) (bbThrLoop R t) (.real .pinf :: as) (.real .pinf :: as) = _
    rw [lex]
    simp only [attrCompare, h, Res.ok_bind]; rfl

/-- Two objects that refer to nothing differ, in both orders; one that refers to nothing is smaller. -/
theorem C85_null_violated (R : Rnd) (t : Dbl) (e f : BElem) (hk : e.kind = f.kind) (a : Nat) (ha : a ≠ 0) :
    compareObjects R ⟨0, e⟩ ⟨0, f⟩ = .ok (-1) ∧ compareObjectsThr R t ⟨0, e⟩ ⟨0, f⟩ = .ok (-1) ∧
    compareObjects R ⟨a, e⟩ ⟨0, f⟩ = .ok 1 ∧ compareObjects R ⟨0, e⟩ ⟨a, f⟩ = .ok (-1) := by
  refine ⟨?_, ?_, ?_, ?_⟩ <;> simp [compareObjects, compareObjectsThr, objects, hk, ha, ha.symm]

example : (cmpMultipole 1).kind = (cmpMultipole 2).kind ∧ (1 : Nat) ≠ 0 := by decide

/-- Two beam-beam elements without data differ, in both orders. -/
theorem C85_no_data_violated (R : Rnd) (a b : Nat) (ha : a ≠ 0) (hb : b ≠ 0) (hab : a ≠ b) :
    compareObjects R ⟨a, .beamBeam6d, [.data none]⟩ ⟨b, .beamBeam6d, [.data none]⟩ = .ok (-1) := by
  unfold compareObjects objects
  rw [if_pos rfl, if_pos ⟨ha, hb, hab⟩]; rfl

/-- With a negative threshold an element differs from its copy: a drift is smaller, a cavity, a shift and a
rotation are larger than the copy. -/
theorem C85_negative_threshold_violated {R : Rnd} {rep : Rat → Prop} (g : R.Good rep) (t : Rat) (ht : rep t)
    (h0 : t < 0) (a b : Nat) (ha : a ≠ 0) (hb : b ≠ 0) (hab : a ≠ b) (x : Rat) (as : List Attr) (k : Kind)
    (hk : k = .cavity ∨ k = .xyShift ∨ k = .srotation) :
    compareObjectsThr R (.fin t) ⟨a, .drift, [.real (.fin x)]⟩ ⟨b, .drift, [.real (.fin x)]⟩ = .ok (-1) ∧
    compareObjectsThr R (.fin t) ⟨a, k, as⟩ ⟨b, k, as⟩ = .ok 1 := by
  have hz : Dbl.zero.le (.fin t) = false := by simp [Dbl.zero, Dbl.le, Dbl.lt, Dbl.eq, not_lt.2 h0.le, h0.ne']
  constructor
  · have h1 : valueResultTol R .zero (.fin t) (.fin x) (.fin x) = -1 := by
      rw [tol_one g t ht x x, if_neg (by simp)]
      rw [sub_self, g.exact 0 g.zero]
      simp [Dbl.abs, Dbl.le, Dbl.lt, Dbl.eq, not_lt.2 h0.le, h0.ne']
    unfold compareObjectsThr objects
    rw [if_pos rfl, if_pos ⟨ha, hb, hab⟩]
    show lex (valueResultTol R .zero (.fin t)) _ [.real (.fin x)] [.real (.fin x)] = _
    simp only [lex, attrCompare, h1, Res.ok_bind]; rfl
  · unfold compareObjectsThr objects
    rw [if_pos rfl, if_pos ⟨ha, hb, hab⟩]
    rcases hk with rfl | rfl | rfl <;> simp [Kind.listedThr, elemThr, elemCompareThr, Kind.testsThr, hz]

example : cmpRep (-1) ∧ ((-1 : Rat) < 0) := ⟨cmpRep_small _ (by norm_num) (by norm_num), by norm_num⟩

/-! ### Cavities, edges and thresholds -/

/-- **C85**: two cavities are equal for the exact comparison exactly if their voltages, frequencies and lags
are. -/
theorem C85_cavity {R : Rnd} {rep : Rat → Prop} (g : R.Good rep) (a b : Nat) (ha : a ≠ 0) (hb : b ≠ 0)
    (hab : a ≠ b) (v v' f f' l l' : Dbl) (hv : Held rep v) (hv' : Held rep v') (hf : Held rep f)
    (hf' : Held rep f') (hl : Held rep l) (hl' : Held rep l') :
    compareObjects R ⟨a, .cavity, [.real v, .real f, .real l]⟩
      ⟨b, .cavity, [.real v', .real f', .real l']⟩ = .ok 0 ↔ v = v' ∧ f = f' ∧ l = l' := by
  have wf : ∀ v f l : Dbl, Held rep v → Held rep f → Held rep l →
      BElem.Wf (Held rep) ⟨.cavity, [.real v, .real f, .real l]⟩ := by
    intro v f l h1 h2 h3
    exact ⟨rfl, by simp [Attr.ok, h1, h2, h3], by intro n as x h; cases h⟩
  obtain ⟨s, h1, _, h2, _⟩ := C85_exact_partial g ⟨a, .cavity, [.real v, .real f, .real l]⟩
    ⟨b, .cavity, [.real v', .real f', .real l']⟩ ha hb (fun h => absurd h hab) (wf v f l hv hf hl)
    (wf v' f' l' hv' hf' hl') (by simp) (by simp) (by simp)
  rw [h1, Res.ok_inj, h2]
  simp [Attr.same]

example : Held cmpRep (.fin 2) ∧ Held cmpRep (.fin 3) :=
  ⟨cmpHeld_small 2 (by norm_num) (by norm_num), cmpHeld_small 3 (by norm_num) (by norm_num)⟩

/-- **C85**, negation: with a threshold the sign for a dipole edge and a `TriCub` is the opposite of the one
for other elements as well: if their first numbers differ by more than the threshold, the element with the
larger number is the smaller one. -/
theorem C85_threshold_sign_violated {R : Rnd} {rep : Rat → Prop} (g : R.Good rep) (t : Rat) (ht : rep t)
    (h0 : 0 ≤ t) (k : Kind) (hk : reversed k) (a b : Nat) (ha : a ≠ 0) (hb : b ≠ 0) (hab : a ≠ b) (x y : Rat)
    (as bs : List Attr) (hd : (R.rd (x - y)).abs.le (.fin t) = false) :
    compareObjectsThr R (.fin t) ⟨a, k, .real (.fin x) :: as⟩ ⟨b, k, .real (.fin y) :: bs⟩ =
      .ok (if y < x then -1 else 1) ∧
    compareObjectsThr R (.fin t) ⟨a, .drift, [.real (.fin x)]⟩ ⟨b, .drift, [.real (.fin y)]⟩ =
      .ok (if y < x then 1 else -1) := by
  have h1 := tol_one g t ht x y (by rw [hd]; simp)
  have h2 := testLib_neg g t ht h0 (.fin x) (.fin y) ⟨x, rfl⟩ ⟨y, rfl⟩
  rw [h1] at h2
  constructor
  · have e : compareObjectsThr R (.fin t) ⟨a, k, .real (.fin x) :: as⟩ ⟨b, k, .real (.fin y) :: bs⟩ =
        lex (testLib R (.fin t)) (bbThrLoop R (.fin t)) (.real (.fin x) :: as) (.real (.fin y) :: bs) := by
      unfold compareObjectsThr objects
      rw [if_pos rfl, if_pos ⟨ha, hb, hab⟩]
      rcases hk with rfl | rfl <;> rfl
    rw [e, lex]
    simp only [attrCompare, Res.ok_bind, h2]
    by_cases h : y < x <;> simp [h, Res.pure_eq]
  · unfold compareObjectsThr objects
    rw [if_pos rfl, if_pos ⟨ha, hb, hab⟩]
    show lex (valueResultTol R .zero (.fin t)) _ [.real (.fin x)] [.real (.fin y)] = _
    rw [lex]
    simp only [attrCompare, Res.ok_bind, h1]
    by_cases h : y < x <;> simp [h, Res.pure_eq]

example : (cmpRnd.rd (3 - 1)).abs.le (.fin 1) = false ∧ reversed .tricub := ⟨by decide +kernel, Or.inr rfl⟩

/-- **C85**, negation: with a negative threshold a dipole edge or `TriCub` is smaller than every one whose first
number differs, in both orders; if the numbers are the same, they are taken as equal. -/
theorem C85_negative_edge_violated {R : Rnd} {rep : Rat → Prop} (g : R.Good rep) (t : Rat) (h0 : t < 0)
    (k : Kind) (hk : reversed k) (a b : Nat) (ha : a ≠ 0) (hb : b ≠ 0) (hab : a ≠ b) (x y : Rat) (hx : rep x)
    (hy : rep y) (as bs : List Attr) :
    compareObjectsThr R (.fin t) ⟨a, k, .real (.fin x) :: as⟩ ⟨b, k, .real (.fin y) :: bs⟩ =
      if x = y then lex (testLib R (.fin t)) (bbThrLoop R (.fin t)) as bs else .ok (-1) := by
  have hz : Dbl.zero.le (.fin t) = false := by
    simp [Dbl.zero, Dbl.le, Dbl.lt, Dbl.eq, not_lt.2 h0.le, h0.ne']
  have h1 : testLib R (.fin t) (.fin x) (.fin y) = if x = y then 0 else -1 := by
    unfold testLib
    rw [sub_fin, hz]
    by_cases h : x = y
    · subst h
      rw [sub_self, g.exact 0 g.zero]
      simp [Dbl.eq, Dbl.zero]
    · have : (R.rd (x - y)).eq .zero = false := by
        cases he : (R.rd (x - y)).eq .zero with
        | false => rfl
        | true => exact absurd (g.diff x y hx hy (Dbl.eq_iff.1 he).1) h
      rw [this]; simp [h]
  have e : compareObjectsThr R (.fin t) ⟨a, k, .real (.fin x) :: as⟩ ⟨b, k, .real (.fin y) :: bs⟩ =
      lex (testLib R (.fin t)) (bbThrLoop R (.fin t)) (.real (.fin x) :: as) (.real (.fin y) :: bs) := by
    unfold compareObjectsThr objects
    rw [if_pos rfl, if_pos ⟨ha, hb, hab⟩]
    rcases hk with rfl | rfl <;> rfl
  rw [e, lex]
  simp only [attrCompare, Res.ok_bind, h1]
  by_cases h : x = y <;> simp [h, Res.pure_eq]

example : cmpRep 1 ∧ cmpRep 2 ∧ reversed .dipoleEdge :=
  ⟨cmpRep_small _ (by norm_num) (by norm_num), cmpRep_small _ (by norm_num) (by norm_num), Or.inl rfl⟩

end SixTrack
