import Verif.CompareElements
import Verif.Props.Compare
import Mathlib.Tactic.Linarith

/-!
# Helper lemmas about comparing beam elements
-/

namespace SixTrack
namespace Cmp

/-- Two results of a comparison of the same things in both orders; `P` says that they are the same. -/
def Anti (x y : Res Int) (P : Prop) : Prop :=
  ∃ s : Int, x = .ok s ∧ y = .ok (-s) ∧ (s = 0 ↔ P) ∧ (s = 0 ∨ s = 1 ∨ s = -1)

theorem Anti.swap {x y : Res Int} {P : Prop} (h : Anti x y P) : Anti y x P := by
  obtain ⟨s, h1, h2, h3, h4⟩ := h
  refine ⟨-s, h2, by rw [neg_neg]; exact h1, by rw [neg_eq_zero]; exact h3, by omega⟩

theorem Anti.congr {x y : Res Int} {P Q : Prop} (h : Anti x y P) (e : P ↔ Q) : Anti x y Q := by
  obtain ⟨s, h1, h2, h3, h4⟩ := h
  exact ⟨s, h1, h2, h3.trans e, h4⟩

theorem Anti.zero {P : Prop} (h : P) : Anti (.ok 0) (.ok 0) P := ⟨0, rfl, rfl, by simp [h], by simp⟩

/-- If the first result is not zero it is the result. -/
theorem Anti.bind {x y : Res Int} {P : Prop} (h : Anti x y P) {u v : Res Int} {Q : Prop}
    (g : P → Anti u v Q) :
    Anti (x >>= fun s => if s = 0 then u else pure s) (y >>= fun s => if s = 0 then v else pure s)
      (P ∧ Q) := by
  obtain ⟨s, h1, h2, h3, h4⟩ := h
  subst h1 h2
  rw [Res.ok_bind, Res.ok_bind]
  by_cases hs : s = 0
  · have hp := h3.1 hs
    subst hs
    rw [if_pos rfl, if_pos (by simp)]
    exact (g hp).congr (by simp [hp])
  · rw [if_neg hs, if_neg (by simpa using hs)]
    exact ⟨s, rfl, rfl, by simp [hs]; intro hp; exact absurd (h3.2 hp) hs, h4⟩

/-- What a comparison of numbers does: `S` says when numbers in `D` are the same. -/
structure NumCmp (c : Dbl → Dbl → Int) (D : Dbl → Prop) (S : Dbl → Dbl → Prop) : Prop where
  zero : ∀ a b, D a → D b → (c a b = 0 ↔ S a b)
  swap : ∀ a b, D a → D b → c b a = -c a b
  tri : ∀ a b, D a → D b → c a b = 0 ∨ c a b = 1 ∨ c a b = -1

theorem NumCmp.anti {c D S} (h : NumCmp c D S) {a b : Dbl} (ha : D a) (hb : D b) :
    Anti (.ok (c a b)) (.ok (c b a)) (S a b) :=
  ⟨c a b, rfl, by rw [h.swap a b ha hb], h.zero a b ha hb, h.tri a b ha hb⟩

theorem NumCmp.refl {c D S} (h : NumCmp c D S) {a : Dbl} (ha : D a) : S a a := by
  have := h.swap a a ha ha
  exact (h.zero a a ha ha).1 (by omega)

theorem anti_int (a b : Int) : Anti (.ok (int64Result a b)) (.ok (int64Result b a)) (a = b) := by
  refine ⟨int64Result a b, rfl, ?_, ?_, ?_⟩
  · congr 1; unfold int64Result; split_ifs <;> omega
  · unfold int64Result; split_ifs <;> simp_all
  · unfold int64Result; split_ifs <;> simp

/-- Ranges of the same length. -/
theorem anti_range {c D S} (h : NumCmp c D S) : ∀ (l r : List Dbl), l.length = r.length →
    (∀ x ∈ l, D x) → (∀ x ∈ r, D x) →
    Anti (rangeResult c l r) (rangeResult c r l) (List.Forall₂ S l r)
  | [], [], _, _, _ => Anti.zero .nil
  | a :: l, b :: r, hl, ha, hb => by
    have ih := anti_range h l r (by simpa using hl) (fun x hx => ha x (by simp [hx]))
      (fun x hx => hb x (by simp [hx]))
    have := (h.anti (ha a (by simp)) (hb b (by simp))).bind (fun _ => ih)
    rw [Res.ok_bind, Res.ok_bind] at this
    rw [rangeResult, rangeResult, List.forall₂_cons]
    exact this

theorem forall₂_refl {S : Dbl → Dbl → Prop} : ∀ (l : List Dbl), (∀ x ∈ l, S x x) → List.Forall₂ S l l
  | [], _ => .nil
  | a :: l, h => .cons (h a (by simp)) (forall₂_refl l (fun x hx => h x (by simp [hx])))

theorem forall₂_length {S : Dbl → Dbl → Prop} {l r : List Dbl} (h : List.Forall₂ S l r) :
    l.length = r.length := by
  induction h with
  | nil => rfl
  | cons _ _ ih => simp [ih]

/-- What `loop` has to do with the data of a beam-beam element. -/
def LoopCmp (loop : List Dbl → List Dbl → Int) (c : Dbl → Dbl → Int) (D : Dbl → Prop) : Prop :=
  ∀ l r : List Dbl, l.length = r.length → (∀ x ∈ l, D x) → (∀ x ∈ r, D x) →
    rangeResult c l r = .ok (loop l r)

/-! ### The sameness of attributes -/

/-- Two profiles are the same. -/
def Prof.same (S : Dbl → Dbl → Prop) (p q : Prof) : Prop :=
  p.method = q.method ∧ p.numValues = q.numValues ∧ List.Forall₂ S p.values q.values ∧
    List.Forall₂ S p.derivatives q.derivatives ∧ S p.z0 q.z0 ∧ S p.dz q.dz

/-- Two attributes are the same: a profile is, wherever it is stored, what it holds. -/
def Attr.same (S : Dbl → Dbl → Prop) : Attr → Attr → Prop
  | .real a, .real b => S a b
  | .int a, .int b => a = b
  | .arr l, .arr r => List.Forall₂ S l r
  | .data (some l), .data (some r) => List.Forall₂ S l r
  | .prof _ (some p), .prof _ (some q) => Prof.same S p q
  | .prof _ none, .prof _ none => True
  | _, _ => False

/-- All numbers of a profile are in `D`, and the arrays are as long as it says. -/
def Prof.ok (D : Dbl → Prop) (p : Prof) : Prop :=
  (p.values.length : Int) = p.numValues ∧ (p.derivatives.length : Int) = p.numValues ∧
    (∀ x ∈ p.values, D x) ∧ (∀ x ∈ p.derivatives, D x) ∧ D p.z0 ∧ D p.dz

/-- All numbers of an attribute are in `D`; the data of a beam-beam element are there; a profile is there
unless its address is zero. -/
def Attr.ok (D : Dbl → Prop) : Attr → Prop
  | .real x => D x
  | .int _ => True
  | .arr l => ∀ x ∈ l, D x
  | .data (some l) => ∀ x ∈ l, D x
  | .data none => False
  | .prof a (some p) => a ≠ 0 ∧ p.ok D
  | .prof a none => a = 0

section

variable {c : Dbl → Dbl → Int} {D : Dbl → Prop} {S : Dbl → Dbl → Prop} {loop : List Dbl → List Dbl → Int}

theorem Prof.same_refl (h : NumCmp c D S) {p : Prof} (hp : p.ok D) : p.same S p :=
  ⟨rfl, rfl, forall₂_refl _ fun x hx => h.refl (hp.2.2.1 x hx),
    forall₂_refl _ fun x hx => h.refl (hp.2.2.2.1 x hx), h.refl hp.2.2.2.2.1, h.refl hp.2.2.2.2.2⟩

theorem Attr.same_refl (h : NumCmp c D S) : ∀ {a : Attr}, a.ok D → a.same S a
  | .real _, ha => h.refl ha
  | .int _, _ => rfl
  | .arr _, ha => forall₂_refl _ fun x hx => h.refl (ha x hx)
  | .data (some _), ha => forall₂_refl _ fun x hx => h.refl (ha x hx)
  | .data none, ha => ha.elim
  | .prof _ (some _), ha => Prof.same_refl h ha.2
  | .prof _ none, _ => trivial

theorem anti_prof (h : NumCmp c D S) {p q : Prof} (hp : p.ok D) (hq : q.ok D) :
    Anti (profCompare c p q) (profCompare c q p) (p.same S q) := by
  obtain ⟨p1, p2, p3, p4, p5, p6⟩ := hp
  obtain ⟨q1, q2, q3, q4, q5, q6⟩ := hq
  unfold profCompare Prof.same
  simp only [chain, id]
  refine (anti_int _ _).bind fun _ => ?_
  refine (anti_int _ _).bind fun e => ?_
  refine (anti_range h _ _ (by omega) p3 q3).bind fun _ => ?_
  refine (anti_range h _ _ (by omega) p4 q4).bind fun _ => ?_
  refine (h.anti p5 q5).bind fun _ => ?_
  exact ((h.anti p6 q6).bind (Q := True) fun _ => Anti.zero trivial).congr (and_true _ ▸ Iff.rfl)

theorem anti_data (h : NumCmp c D S) (hl : LoopCmp loop c D) {l r : List Dbl} (ha : ∀ x ∈ l, D x)
    (hb : ∀ x ∈ r, D x) :
    Anti (.ok (bbCompare loop (some l) (some r))) (.ok (bbCompare loop (some r) (some l)))
      (List.Forall₂ S l r) := by
  simp only [bbCompare]
  by_cases he : l.length = r.length
  · simp only [he, if_true]
    rw [← hl l r he ha hb, ← hl r l he.symm hb ha]
    exact anti_range h l r he ha hb
  · have hn : ¬ List.Forall₂ S l r := fun hf => he (forall₂_length hf)
    rw [if_neg he, if_neg (fun h : r.length = l.length => he h.symm)]
    by_cases hlt : r.length < l.length
    · rw [if_pos hlt, if_neg (by omega)]
      exact ⟨1, rfl, rfl, by simp [hn], by simp⟩
    · rw [if_neg hlt, if_pos (by omega)]
      exact ⟨-1, rfl, rfl, by simp [hn], by simp⟩

/-- Two attributes of the same kind. -/
theorem anti_attr (h : NumCmp c D S) {a b : Attr} (hl : (∃ l, a = .data l) → LoopCmp loop c D) (ht : a.tag = b.tag)
    (ha : a.ok D) (hb : b.ok D)
    (harr : ∀ l r, a = .arr l → b = .arr r → l.length = r.length)
    (hprof : ∀ x p q, a = .prof x p → b = .prof x q → p = q) :
    Anti (attrCompare c loop a b) (attrCompare c loop b a) (a.same S b) := by
  cases a with
  | real x => cases b with
    | real y => exact h.anti ha hb
    | _ => cases ht
  | int x => cases b with
    | int y => exact anti_int x y
    | _ => cases ht
  | arr l => cases b with
    | arr r => exact anti_range h l r (harr l r rfl rfl) ha hb
    | _ => cases ht
  | data l => cases b with
    | data r => cases l with
      | none => exact ha.elim
      | some l => cases r with
        | none => exact hb.elim
        | some r => exact anti_data h (hl ⟨_, rfl⟩) ha hb
    | _ => cases ht
  | prof x p => cases b with
    | prof y q =>
      show Anti (if x = y then .ok 0 else profPtrCompare c p q) (if y = x then .ok 0 else profPtrCompare c q p) _
      by_cases he : x = y
      · subst he
        rw [if_pos rfl, if_pos rfl]
        have := hprof x p q rfl rfl
        subst this
        exact Anti.zero (Attr.same_refl h ha)
      · rw [if_neg he, if_neg (fun h => he h.symm)]
        cases p with
        | none => cases q with
          | none => exact absurd (Eq.trans ha (Eq.symm hb)) he
          | some q => exact ⟨1, rfl, rfl, by simp [Attr.same], by simp⟩
        | some p => cases q with
          | none => exact ⟨-1, rfl, rfl, by simp [Attr.same], by simp⟩
          | some q => exact anti_prof h ha.2 hb.2
    | _ => cases ht

/-- Two lists of attributes of the same kinds. -/
theorem anti_lex (h : NumCmp c D S) : ∀ (l r : List Attr),
    ((∃ x, .data x ∈ l) → LoopCmp loop c D) → l.map Attr.tag = r.map Attr.tag → (∀ a ∈ l, a.ok D) → (∀ a ∈ r, a.ok D) →
    (∀ x y, .arr x ∈ l → .arr y ∈ r → x.length = y.length) →
    (∀ x p q, .prof x p ∈ l → .prof x q ∈ r → p = q) →
    Anti (lex c loop l r) (lex c loop r l) (List.Forall₂ (Attr.same S) l r)
  | [], [], _, _, _, _, _, _ => Anti.zero .nil
  | [], _ :: _, _, ht, _, _, _, _ => by simp at ht
  | _ :: _, [], _, ht, _, _, _, _ => by simp at ht
  | a :: l, b :: r, hl, ht, ha, hb, harr, hprof => by
    simp only [List.map_cons, List.cons.injEq] at ht
    have ih := anti_lex h l r (fun ⟨x, hx⟩ => hl ⟨x, by simp [hx]⟩) ht.2 (fun x hx => ha x (by simp [hx])) (fun x hx => hb x (by simp [hx]))
      (fun x y hx hy => harr x y (by simp [hx]) (by simp [hy]))
      (fun x p q hx hy => hprof x p q (by simp [hx]) (by simp [hy]))
    rw [lex, lex, List.forall₂_cons]
    exact (anti_attr h (fun ⟨x, hx⟩ => hl ⟨x, by simp [hx]⟩) ht.1 (ha a (by simp)) (hb b (by simp))
      (fun x y hx hy => harr x y (by simp [hx]) (by simp [hy]))
      (fun x p q hx hy => hprof x p q (by simp [hx]) (by simp [hy]))).bind fun _ => ih

/-- The same if the first attribute is an integer that determines the lengths of the arrays. -/
theorem anti_lex_order (h : NumCmp c D S) (m n : Int) (l r : List Attr)
    (hl : (∃ x, .data x ∈ l) → LoopCmp loop c D)
    (ht : l.map Attr.tag = r.map Attr.tag) (ha : ∀ a ∈ l, a.ok D) (hb : ∀ a ∈ r, a.ok D)
    (harr : ∀ x y, m = n → .arr x ∈ l → .arr y ∈ r → x.length = y.length)
    (hprof : ∀ x p q, .prof x p ∈ l → .prof x q ∈ r → p = q) :
    Anti (lex c loop (.int m :: l) (.int n :: r)) (lex c loop (.int n :: r) (.int m :: l))
      (List.Forall₂ (Attr.same S) (.int m :: l) (.int n :: r)) := by
  rw [lex, lex, List.forall₂_cons]
  exact (anti_int m n).bind fun e => anti_lex h l r hl ht ha hb (fun x y => harr x y e) hprof

/-- The comparison does not tell apart what is the same. -/
theorem attr_same_zero (h : NumCmp c D S) {a b : Attr} (hl : (∃ l, a = .data l) → LoopCmp loop c D)
    (ha : a.ok D) (hb : b.ok D) (hab : a.same S b) : attrCompare c loop a b = .ok 0 := by
  have key : ∀ {x y : Res Int} {P : Prop}, Anti x y P → P → x = .ok 0 := by
    rintro x y P ⟨s, h1, _, h3, _⟩ hP
    rw [h1, h3.2 hP]
  cases a with
  | real x => cases b with
    | real y => exact key (h.anti ha hb) hab
    | _ => exact hab.elim
  | int x => cases b with
    | int y => exact key (anti_int x y) hab
    | _ => exact hab.elim
  | arr l => cases b with
    | arr r => exact key (anti_range h l r (forall₂_length hab) ha hb) hab
    | _ => exact hab.elim
  | data l => cases l with
    | none => exact ha.elim
    | some l => cases b with
      | data r => cases r with
        | none => exact hb.elim
        | some r => exact key (anti_data h (hl ⟨_, rfl⟩) ha hb) hab
      | _ => exact hab.elim
  | prof x p => cases b with
    | prof y q =>
      show (if x = y then .ok 0 else profPtrCompare c p q) = _
      split
      · rfl
      · rename_i hxy
        cases p with
        | none => cases q with
          | none => exact absurd (Eq.trans ha (Eq.symm hb)) hxy
          | some q => exact hab.elim
        | some p => cases q with
          | none => exact hab.elim
          | some q => exact key (anti_prof h ha.2 hb.2) hab
    | _ => cases p <;> exact hab.elim

theorem lex_same_zero (h : NumCmp c D S) : ∀ (l r : List Attr),
    ((∃ x, .data x ∈ l) → LoopCmp loop c D) → (∀ a ∈ l, a.ok D) → (∀ a ∈ r, a.ok D) →
    List.Forall₂ (Attr.same S) l r → lex c loop l r = .ok 0
  | [], [], _, _, _, _ => rfl
  | [], _ :: _, _, _, _, h' => by cases h'
  | _ :: _, [], _, _, _, h' => by cases h'
  | a :: l, b :: r, hl, ha, hb, h' => by
    rw [List.forall₂_cons] at h'
    rw [lex, attr_same_zero h (fun ⟨x, hx⟩ => hl ⟨x, by simp [hx]⟩) (ha _ (by simp)) (hb _ (by simp)) h'.1,
      Res.ok_bind, if_pos rfl]
    exact lex_same_zero h l r (fun ⟨x, hx⟩ => hl ⟨x, by simp [hx]⟩) (fun x hx => ha x (by simp [hx]))
      (fun x hx => hb x (by simp [hx])) h'.2

/-- Attributes that are the same are skipped. -/
theorem lex_skip : ∀ (l r : List Attr) (a b : Attr) (l' r' : List Attr), lex c loop l r = .ok 0 →
    lex c loop (l ++ a :: l') (r ++ b :: r') = lex c loop (a :: l') (b :: r')
  | [], [], _, _, _, _, _ => rfl
  | [], _ :: _, _, _, _, _, h => by cases h
  | _ :: _, [], _, _, _, _, h => by cases h
  | x :: l, y :: r, a, b, l', r', h => by
    rw [lex] at h
    rw [List.cons_append, List.cons_append, lex]
    cases hc : attrCompare c loop x y with
    | ub => rw [hc] at h; cases h
    | ok s =>
      rw [hc, Res.ok_bind] at h
      rw [Res.ok_bind]
      by_cases hs : s = 0
      · rw [if_pos hs] at h ⊢
        exact lex_skip l r a b l' r' h
      · rw [if_neg hs] at h
        exact absurd ((Res.ok_inj _ _).1 h) hs

end

/-! ### The comparisons of numbers that are used -/

/-- Numbers but no NaN. -/
def NotNan (x : Dbl) : Prop := x ≠ .nan

/-- No NaN, and the finite ones are numbers of the arithmetic. -/
def Held (rep : Rat → Prop) (x : Dbl) : Prop := x ≠ .nan ∧ ∀ q, x = .fin q → rep q

/-- Finite numbers. -/
def Finite (x : Dbl) : Prop := ∃ q, x = .fin q

theorem numCmp_value : NumCmp valueResult NotNan (· = ·) where
  zero a b ha _ := by rw [C83_equal]; exact ⟨fun h => h.1, fun h => ⟨h, ha⟩⟩
  swap a b ha hb := (C83_sign a b ha hb).2.2
  tri a b _ _ := by
    rcases valueResult_cases a b with h | h | h <;> simp [h]

theorem NumCmp.mono {c D D' S} (h : NumCmp c D S) (hd : ∀ x, D' x → D x) : NumCmp c D' S where
  zero a b ha hb := h.zero a b (hd a ha) (hd b hb)
  swap a b ha hb := h.swap a b (hd a ha) (hd b hb)
  tri a b ha hb := h.tri a b (hd a ha) (hd b hb)

theorem NumCmp.neg {c D S} (h : NumCmp c D S) {c'} (hn : ∀ a b, D a → D b → c' a b = -c a b) :
    NumCmp c' D S where
  zero a b ha hb := by rw [hn a b ha hb, neg_eq_zero]; exact h.zero a b ha hb
  swap a b ha hb := by rw [hn a b ha hb, hn b a hb ha, h.swap a b ha hb]
  tri a b ha hb := by rw [hn a b ha hb]; have := h.tri a b ha hb; omega

theorem bbLoop_range : LoopCmp bbLoop valueResult NotNan
  | [], [], _, _, _ => rfl
  | a :: l, b :: r, hl, ha, hb => by
    have ih := bbLoop_range l r (by simpa using hl) (fun x hx => ha x (by simp [hx]))
      (fun x hx => hb x (by simp [hx]))
    rw [rangeResult, bbLoop, ih]
    have han := ha a (by simp)
    have hbn := hb b (by simp)
    rcases Dbl.tri han hbn with h | h | h
    · rw [if_neg, if_neg (by rw [Dbl.lt_asymm h]; simp), if_pos h]
      · unfold valueResult
        rw [equal, more, Dbl.lt_eq h, Dbl.lt_asymm h]; rfl
      · rw [C83_equal]; rintro ⟨rfl, _⟩; rw [Dbl.lt_irrefl] at h; cases h
    · subst h
      rw [if_pos ((C83_equal _ _).2 ⟨rfl, han⟩), Dbl.lt_irrefl]; rfl
    · have : valueResult a b = 1 := valueResult_one.2 h
      rw [if_neg (by omega), if_pos h, this]

section

variable {R : Rnd} {rep : Rat → Prop}

theorem numCmp_tol (g : R.Good rep) (t : Rat) (ht : rep t) (h0 : 0 ≤ t) :
    NumCmp (valueResultTol R .zero (.fin t)) Finite (fun a b => (R.sub a b).abs.le (.fin t) = true) where
  zero := by
    rintro _ _ ⟨a, rfl⟩ ⟨b, rfl⟩
    rw [(C83_close R rep g a b t ht).1, sub_fin]
  swap := by
    rintro _ _ ⟨a, rfl⟩ ⟨b, rfl⟩
    exact (C83_close_sign R rep g a b t ht h0).2.2
  tri := by
    rintro _ _ ⟨a, rfl⟩ ⟨b, rfl⟩
    unfold valueResultTol; split_ifs <;> simp

/-- What the sign of a rounded difference is. -/
theorem rd_sign (g : R.Good rep) (t : Rat) (h0 : 0 ≤ t) (a b : Rat)
    (h : ¬ (R.rd (a - b)).abs.le (.fin t) = true) :
    (b < a ∧ Dbl.zero.lt (R.rd (a - b)) = true ∧ (Dbl.fin t).lt (R.rd (a - b)) = true) ∨
      (a < b ∧ (R.rd (a - b)).lt .zero = true ∧ (R.rd (a - b)).lt (Dbl.fin t).neg = true) := by
  have hne : R.rd (a - b) ≠ .nan := g.num _
  rcases lt_trichotomy a b with hab | hab | hab
  · right
    have := g.mono (a - b) 0 (by linarith)
    rw [g.exact 0 g.zero] at this
    refine ⟨hab, ?_⟩
    generalize R.rd (a - b) = d at *
    cases d with
    | nan => exact absurd rfl hne
    | ninf => exact ⟨rfl, rfl⟩
    | pinf => cases this
    | fin q =>
      have hq : q ≤ 0 := Dbl.le_fin.1 this
      simp only [Dbl.abs] at h
      rw [Dbl.le_fin] at h
      have : t < -q := by
        split_ifs at h with hc
        · have : q = 0 := by linarith
          subst this; exact absurd h0 h
        · exact not_le.1 h
      simp only [Dbl.zero, Dbl.lt, Dbl.neg, decide_eq_true_eq]
      constructor <;> linarith
  · subst hab
    rw [sub_self, g.exact 0 g.zero] at h
    exact absurd (Dbl.le_fin.2 (by simpa using h0)) h
  · left
    have := g.mono 0 (a - b) (by linarith)
    rw [g.exact 0 g.zero] at this
    refine ⟨hab, ?_⟩
    generalize R.rd (a - b) = d at *
    cases d with
    | nan => exact absurd rfl hne
    | pinf => exact ⟨rfl, rfl⟩
    | ninf => cases this
    | fin q =>
      have hq : 0 ≤ q := Dbl.le_fin.1 this
      simp only [Dbl.abs] at h
      rw [Dbl.le_fin, if_pos hq, not_le] at h
      simp only [Dbl.zero, Dbl.lt, decide_eq_true_eq]
      constructor <;> linarith

/-- What is within the threshold is not beyond it on either side. -/
theorem rd_within (g : R.Good rep) (t : Rat) (a b : Rat) (h : (R.rd (a - b)).abs.le (.fin t) = true) :
    (Dbl.fin t).lt (R.rd (a - b)) = false ∧ (R.rd (a - b)).lt (Dbl.fin t).neg = false := by
  have hne : R.rd (a - b) ≠ .nan := g.num _
  generalize R.rd (a - b) = d at *
  cases d with
  | nan => exact absurd rfl hne
  | pinf => cases h
  | ninf => cases h
  | fin q =>
    simp only [Dbl.abs] at h
    rw [Dbl.le_fin] at h
    simp only [Dbl.lt, Dbl.neg, decide_eq_false_iff_not, not_lt]
    split_ifs at h <;> constructor <;> linarith

theorem tol_one (g : R.Good rep) (t : Rat) (ht : rep t) (a b : Rat)
    (h : ¬ (R.rd (a - b)).abs.le (.fin t) = true) :
    valueResultTol R .zero (.fin t) (.fin a) (.fin b) = if b < a then 1 else -1 := by
  unfold valueResultTol
  rw [isClose_abs g a b t ht, if_neg h]
  simp [more, Dbl.lt]

/-- `TestLibCompare_real_attribute_with_treshold` says the opposite. -/
theorem testLib_neg (g : R.Good rep) (t : Rat) (ht : rep t) (h0 : 0 ≤ t) (a b : Dbl) (ha : Finite a)
    (hb : Finite b) : testLib R (.fin t) a b = -valueResultTol R .zero (.fin t) a b := by
  obtain ⟨a, rfl⟩ := ha
  obtain ⟨b, rfl⟩ := hb
  unfold testLib
  rw [sub_fin]
  have hz : Dbl.zero.le (.fin t) = true := Dbl.le_fin.2 h0
  by_cases h : (R.rd (a - b)).abs.le (.fin t) = true
  · have hv : valueResultTol R .zero (.fin t) (.fin a) (.fin b) = 0 := (C83_close R rep g a b t ht).1.2 h
    obtain ⟨h1, h2⟩ := rd_within g t a b h
    rw [hv, h1, h2, hz]
    simp
  · rw [tol_one g t ht a b h]
    have hd : (R.rd (a - b)).eq .zero = false := by
      cases he : (R.rd (a - b)).eq .zero with
      | false => rfl
      | true =>
        rw [Dbl.eq_iff] at he
        rw [he.1] at h
        exact absurd (Dbl.le_fin.2 (by simpa using h0)) h
    rw [hd, hz]
    rcases rd_sign g t h0 a b h with ⟨hab, h1, h2⟩ | ⟨hab, h1, h2⟩
    · rw [if_pos hab, h2]
      have : Dbl.zero.le (R.rd (a - b)) = true := Dbl.le_iff.2 (Or.inl h1)
      rw [this]; simp
    · rw [if_neg (show ¬ b < a by linarith), h1, h2]
      have : Dbl.zero.le (R.rd (a - b)) = false := (Dbl.not_le (by simp [Dbl.zero]) (g.num _)).2 h1
      rw [this]; simp

theorem bbThrLoop_range (g : R.Good rep) (t : Rat) (ht : rep t) (h0 : 0 ≤ t) :
    LoopCmp (bbThrLoop R (.fin t)) (valueResultTol R .zero (.fin t)) Finite
  | [], [], _, _, _ => rfl
  | x :: l, y :: r, hl, hx, hy => by
    have ih := bbThrLoop_range g t ht h0 l r (by simpa using hl) (fun z hz => hx z (by simp [hz]))
      (fun z hz => hy z (by simp [hz]))
    obtain ⟨a, rfl⟩ := hx x (by simp)
    obtain ⟨b, rfl⟩ := hy y (by simp)
    rw [rangeResult, bbThrLoop, ih, sub_fin]
    by_cases h : (R.rd (a - b)).abs.le (.fin t) = true
    · have hv : valueResultTol R .zero (.fin t) (.fin a) (.fin b) = 0 := (C83_close R rep g a b t ht).1.2 h
      rw [if_pos hv, if_neg]
      obtain ⟨h1, _⟩ := rd_within g t a b h
      obtain ⟨_, h2⟩ := rd_within g t a b h
      split_ifs
      · rw [h1]; simp
      · have : (Dbl.fin t).lt (R.rd (a - b)).neg = (R.rd (a - b)).lt (Dbl.fin t).neg := by
          cases R.rd (a - b) <;> simp [Dbl.lt, Dbl.neg]
          constructor <;> intro <;> linarith
        rw [this, h2]; simp
    · have hv := tol_one g t ht a b h
      rcases rd_sign g t h0 a b h with ⟨hab, h1, h2⟩ | ⟨hab, h1, h2⟩
      · rw [if_pos hab] at hv
        have : Dbl.zero.le (R.rd (a - b)) = true := Dbl.le_iff.2 (Or.inl h1)
        rw [hv, this]; simp [h1, h2]
      · rw [if_neg (by linarith)] at hv
        have : Dbl.zero.le (R.rd (a - b)) = false := (Dbl.not_le (by simp [Dbl.zero]) (g.num _)).2 h1
        have h3 : (Dbl.fin t).lt (R.rd (a - b)).neg = true := by
          revert h2
          cases R.rd (a - b) <;> simp [Dbl.lt, Dbl.neg]
          intro; linarith
        rw [hv, this, Dbl.lt_asymm h1]; simp [h3]

/-- Without a threshold the function of compare.h says the opposite of the exact comparison. -/
theorem testLib_zero (g : R.Good rep) (a b : Dbl) (ha : Held rep a) (hb : Held rep b) :
    testLib R .zero a b = -valueResult a b := by
  obtain ⟨ha, ha'⟩ := ha
  obtain ⟨hb, hb'⟩ := hb
  cases a with
  | nan => exact absurd rfl ha
  | fin p => cases b with
    | nan => exact absurd rfl hb
    | fin q =>
      rw [← C83_close_zero R rep g p q (ha' p rfl) (hb' q rfl)]
      exact testLib_neg g 0 g.zero (by simp) _ _ ⟨p, rfl⟩ ⟨q, rfl⟩
    | _ => rfl
  | _ => cases b with
    | nan => exact absurd rfl hb
    | _ => rfl

theorem numCmp_testLib (g : R.Good rep) : NumCmp (testLib R .zero) (Held rep) (· = ·) :=
  (numCmp_value.mono fun _ h => h.1).neg fun a b ha hb => testLib_zero g a b ha hb

theorem numCmp_testLib_thr (g : R.Good rep) (t : Rat) (ht : rep t) (h0 : 0 ≤ t) :
    NumCmp (testLib R (.fin t)) Finite (fun a b => (R.sub a b).abs.le (.fin t) = true) :=
  (numCmp_tol g t ht h0).neg fun a b ha hb => testLib_neg g t ht h0 a b ha hb

end

/-! ### Objects -/

/-- What elements have to look like: the attributes are those of the kind, the numbers are in `D`, and the
arrays of multipoles are as long as the order says. -/
structure BElem.Wf (D : Dbl → Prop) (e : BElem) : Prop where
  tags : e.attrs.map Attr.tag = e.kind.fields
  nums : ∀ a ∈ e.attrs, a.ok D
  order : ∀ (n : Int) (as : List Attr) (x : List Dbl), e.attrs = .int n :: as → .arr x ∈ as →
    (x.length : Int) = 2 * n + 2

theorem BElem.Wf.tag_mem {D} {e : BElem} (h : e.Wf D) {a : Attr} (ha : a ∈ e.attrs) :
    a.tag ∈ e.kind.fields := by
  rw [← h.tags]; exact List.mem_map_of_mem ha

theorem no_arr {k : Kind} (h : Tag.arr ∈ k.fields) : ∃ t, k.fields = .int :: t := by
  cases k <;> first | exact ⟨_, rfl⟩ | (exfalso; revert h; decide)

theorem no_data {k : Kind} (h : Tag.data ∈ k.fields) : k = .beamBeam4d ∨ k = .beamBeam6d := by
  revert h; cases k <;> decide

theorem tag_int {a : Attr} (h : a.tag = .int) : ∃ n, a = .int n := by
  cases a <;> first | exact ⟨_, rfl⟩ | cases h

/-- Two elements of the same kind. -/
theorem anti_elem {c D S loop} (h : NumCmp c D S) {e f : BElem} (hk : e.kind = f.kind) (he : e.Wf D)
    (hf : f.Wf D) (hl : e.kind = .beamBeam4d ∨ e.kind = .beamBeam6d → LoopCmp loop c D)
    (hp : ∀ x p q, .prof x p ∈ e.attrs → .prof x q ∈ f.attrs → p = q) :
    Anti (lex c loop e.attrs f.attrs) (lex c loop f.attrs e.attrs)
      (List.Forall₂ (Attr.same S) e.attrs f.attrs) := by
  have ht : e.attrs.map Attr.tag = f.attrs.map Attr.tag := by rw [he.tags, hf.tags, hk]
  have hd : (∃ x, .data x ∈ e.attrs) → LoopCmp loop c D :=
    fun ⟨x, hx⟩ => hl (no_data (he.tag_mem hx))
  by_cases harr : Tag.arr ∈ e.kind.fields
  · obtain ⟨t, htt⟩ := no_arr harr
    have h1 := he.tags
    have h2 := hf.tags
    rw [htt] at h1
    rw [← hk, htt] at h2
    obtain ⟨a, as, ha, hat, has⟩ := List.map_eq_cons_iff.1 h1
    obtain ⟨b, bs, hb, hbt, hbs⟩ := List.map_eq_cons_iff.1 h2
    obtain ⟨m, rfl⟩ := tag_int hat
    obtain ⟨n, rfl⟩ := tag_int hbt
    have hen := he.nums
    have hfn := hf.nums
    rw [ha] at hd hp hen ⊢
    rw [hb] at hp hfn ⊢
    refine anti_lex_order h m n as bs (fun ⟨x, hx⟩ => hd ⟨x, by simp [hx]⟩) (by rw [has, hbs])
      (fun a ha => hen a (by simp [ha])) (fun a ha => hfn a (by simp [ha])) (fun x y hmn hx hy => ?_)
      (fun x p q h1 h2 => hp x p q (by simp [h1]) (by simp [h2]))
    have h3 := he.order m as x ha hx
    have h4 := hf.order n bs y hb hy
    omega
  · refine anti_lex h _ _ hd ht he.nums hf.nums (fun x _ hx _ => ?_) hp
    exact absurd (he.tag_mem hx) harr

theorem anti_objects {body : BElem → BElem → Res Int} {P : Prop} {l r : BObj} (hl : l.addr ≠ 0)
    (hr : r.addr ≠ 0) (hs : l.addr = r.addr → P) (hk : P → l.elem.kind.typeId = r.elem.kind.typeId)
    (h : l.elem.kind.typeId = r.elem.kind.typeId → Anti (body l.elem r.elem) (body r.elem l.elem) P) :
    Anti (objects body l r) (objects body r l) P := by
  unfold objects
  by_cases ht : l.elem.kind.typeId = r.elem.kind.typeId
  · rw [if_pos ht, if_pos ht.symm]
    by_cases ha : l.addr = r.addr
    · simp only [ha, ne_eq, not_true_eq_false, and_false, if_false, hr, not_false_eq_true, if_true]
      exact Anti.zero (hs ha)
    · rw [if_pos ⟨hl, hr, ha⟩, if_pos ⟨hr, hl, fun h => ha h.symm⟩]
      exact h ht
  · have hn : ¬ P := fun hp => ht (hk hp)
    rw [if_neg ht, if_neg (fun h : r.elem.kind.typeId = l.elem.kind.typeId => ht h.symm)]
    by_cases hlt : r.elem.kind.typeId < l.elem.kind.typeId
    · rw [if_pos hlt, if_neg (by omega)]
      exact ⟨1, rfl, rfl, by simp [hn], by simp⟩
    · rw [if_neg hlt, if_pos (by omega)]
      exact ⟨-1, rfl, rfl, by simp [hn], by simp⟩

theorem typeId_inj : ∀ {j k : Kind}, j.typeId = k.typeId → j = k := by
  intro j k; cases j <;> cases k <;> decide

end Cmp
end SixTrack
