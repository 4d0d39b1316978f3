import Verif.ParticlesAddr

/-!
# Lemmas about addresses of particle sets
-/

namespace SixTrack.ParticlesAddr
open Particles

theorem Rec.ext' {a b : Rec} (h1 : a.num = b.num) (h2 : ∀ f, a.addr f = b.addr f) : a = b := by
  cases a; cases b
  simp only at h1 h2
  subst h1
  congr
  exact funext h2

theorem mem_fields (f : Field) : f ∈ fields := by cases f <;> decide

theorem fields_nodup : fields.Nodup := by decide

theorem foldSet_num (u : Rec → Field → Nat) (l : List Field) (r : Rec) :
    (l.foldl (fun q f => q.set f (u q f)) r).num = r.num := by
  induction l generalizing r with
  | nil => rfl
  | cons a l ih => rw [List.foldl_cons, ih]; rfl

theorem foldSet_addr (u : Field → Nat → Nat) (l : List Field) (hl : l.Nodup) (r : Rec) (h : Field) :
    (l.foldl (fun q f => q.set f (u f (q.addr f))) r).addr h =
      if h ∈ l then u h (r.addr h) else r.addr h := by
  induction l generalizing r with
  | nil => rfl
  | cons a l ih =>
    obtain ⟨h1, h2⟩ := List.nodup_cons.1 hl
    rw [List.foldl_cons, ih h2]
    by_cases ha : h = a
    · subst ha
      rw [if_neg h1, if_pos (by simp)]
      simp [Rec.set]
    · by_cases hm : h ∈ l
      · rw [if_pos hm, if_pos (by simp [hm])]
        simp [Rec.set, ha]
      · rw [if_neg hm, if_neg (by simp [hm, ha])]
        simp [Rec.set, ha]

theorem fieldsSet_addr (u : Field → Nat → Nat) (r : Rec) (h : Field) :
    (fields.foldl (fun q f => q.set f (u f (q.addr f))) r).addr h = u h (r.addr h) := by
  rw [foldSet_addr u fields fields_nodup r h, if_pos (mem_fields h)]

theorem clear_addr (r : Rec) (f : Field) : (clear r).addr f = 0 :=
  fieldsSet_addr (fun _ _ => 0) r f

theorem clear_num (r : Rec) : (clear r).num = r.num :=
  foldSet_num (fun _ _ => 0) fields r

theorem preset_eq (r : Rec) : preset r = ⟨0, fun _ => 0⟩ :=
  Rec.ext' (clear_num _) (fun f => clear_addr _ f)

theorem assignFrom_eq (r p : Rec) : assignFrom r p = p :=
  Rec.ext' (foldSet_num (fun _ f => p.addr f) fields { r with num := p.num })
    (fun f => fieldsSet_addr (fun f _ => p.addr f) { r with num := p.num } f)

theorem assignTo_eq (r p : Rec) : assignTo r p = r :=
  Rec.ext' (foldSet_num (fun _ f => r.addr f) fields { p with num := r.num })
    (fun f => fieldsSet_addr (fun f _ => r.addr f) { p with num := r.num } f)

theorem any_zero_iff (r : Rec) :
    fields.any (fun f => r.addr f == 0) = true ↔ ∃ f, r.addr f = 0 := by
  rw [List.any_eq_true]
  constructor
  · rintro ⟨f, _, h⟩; exact ⟨f, by simpa using h⟩
  · rintro ⟨f, h⟩; exact ⟨f, mem_fields f, by simpa using h⟩

theorem cmpFold_ne (l r : Rec) (fs : List Field) (c : Int) (hc : c ≠ 0) :
    fs.foldl (cmpStep l r) c = c := by
  induction fs with
  | nil => rfl
  | cons f fs ih =>
    rw [List.foldl_cons, cmpStep, if_neg (fun h => hc h.1)]
    exact ih

theorem cmpFold_zero (l r : Rec) (fs : List Field) :
    fs.foldl (cmpStep l r) 0 = 0 ↔ ∀ f ∈ fs, l.addr f = r.addr f := by
  induction fs with
  | nil => simp
  | cons f fs ih =>
    rw [List.foldl_cons, cmpStep]
    by_cases h : l.addr f = r.addr f
    · rw [if_neg (fun hh => hh.2 h), ih]
      simp [h]
    · rw [if_pos ⟨rfl, h⟩]
      have hne : (if l.addr f > r.addr f then (1 : Int) else -1) ≠ 0 := by split <;> decide
      rw [cmpFold_ne _ _ _ _ hne]
      simp [h, hne]

theorem cmpFold_antisymm (l r : Rec) (fs : List Field) (c : Int) :
    fs.foldl (cmpStep r l) (-c) = -(fs.foldl (cmpStep l r) c) := by
  induction fs generalizing c with
  | nil => rfl
  | cons f fs ih =>
    rw [List.foldl_cons, List.foldl_cons]
    have : cmpStep r l (-c) f = -(cmpStep l r c f) := by
      unfold cmpStep
      by_cases hc : c = 0
      · by_cases h : l.addr f = r.addr f
        · rw [if_neg (fun hh => hh.2 h.symm), if_neg (fun hh => hh.2 h)]
        · have h1 : -c = 0 ∧ r.addr f ≠ l.addr f := ⟨by omega, Ne.symm h⟩
          have h2 : c = 0 ∧ l.addr f ≠ r.addr f := ⟨hc, h⟩
          rw [if_pos h1, if_pos h2]
          by_cases hg : l.addr f > r.addr f
          · have hn : ¬ r.addr f > l.addr f := by omega
            rw [if_pos hg, if_neg hn]
          · have hp : r.addr f > l.addr f := by omega
            rw [if_neg hg, if_pos hp]; rfl
      · rw [if_neg (fun hh => hc (by omega)), if_neg (fun hh => hc hh.1)]
    rw [this, ih]

theorem compare_eq_zero (l r : Rec) : compare (some l) (some r) = 0 ↔ l = r := by
  simp only [compare]
  by_cases h : l.num = r.num
  · rw [if_pos h, cmpFold_zero]
    exact ⟨fun hh => Rec.ext' h (fun f => hh f (mem_fields f)), fun hh f _ => by rw [hh]⟩
  · rw [if_neg h]
    have hne : (if l.num > r.num then (1 : Int) else -1) ≠ 0 := by split <;> decide
    rw [cmpFold_ne _ _ _ _ hne]
    exact ⟨fun hh => absurd hh hne, fun hh => absurd (by rw [hh]) h⟩

theorem prepareLoop_spec (alloc : Nat → Bool) (pb : List (Option Rec)) (k : Nat) :
    (prepareLoop alloc pb k).2.length ≤ pb.length ∧
      ((prepareLoop alloc pb k).2.length = pb.length →
        (∀ i, i < pb.length → alloc (k + i) = true) ∧
        (prepareLoop alloc pb k).1 = (pb.filter Option.isSome).length ∧
        (prepareLoop alloc pb k).2 = pb.map fun p => some (newRec (p.elim 0 Rec.num))) := by
  induction pb generalizing k with
  | nil => simp [prepareLoop]
  | cons p pb ih =>
    obtain ⟨h1, h2⟩ := ih (k + 1)
    simp only [prepareLoop]
    by_cases ha : alloc k = true
    · rw [if_pos ha]
      refine ⟨by simpa using h1, fun hl => ?_⟩
      obtain ⟨h3, h4, h5⟩ := h2 (by simpa using hl)
      refine ⟨?_, ?_, ?_⟩
      · intro i hi
        cases i with
        | zero => exact ha
        | succ i =>
          have := h3 i (by simpa using hi)
          rwa [show k + (i + 1) = k + 1 + i by omega]
      · simp only [h4]
        cases p <;> simp
      · simp [h5]
    · rw [if_neg ha]
      refine ⟨by simp only [List.length_cons]; omega, fun hl => ?_⟩
      simp only [List.length_cons] at hl
      omega

theorem prepareLoop_all (alloc : Nat → Bool) (pb : List (Option Rec)) (k : Nat)
    (h : ∀ i, i < pb.length → alloc (k + i) = true) :
    (prepareLoop alloc pb k).2.length = pb.length := by
  induction pb generalizing k with
  | nil => rfl
  | cons p pb ih =>
    simp only [prepareLoop]
    rw [if_pos (by simpa using h 0 (by simp))]
    simp only [List.length_cons]
    rw [ih (k + 1) (fun i hi => by
      have := h (i + 1) (by simpa using hi)
      rwa [show k + (i + 1) = k + 1 + i by omega] at this)]

/-- what an object of the address buffer holds after storing -/
def stored (p : Option Rec) : Option Rec := some (p.getD ⟨0, fun _ => 0⟩)

theorem store_ok (ab pb : List (Option Rec)) (i : Nat) (r : Rec) (p : Option Rec)
    (ha : ab[i]? = some (some r)) (hp : pb[i]? = some p) :
    store ab pb i = .ok (SUCCESS, ab.set i (stored p)) := by
  unfold store
  rw [ha, hp]
  cases p with
  | none => simp only [preset_eq]; rfl
  | some p => simp only [assignFrom_eq]; rfl

theorem storeLoop_ok (pb : List (Option Rec)) (n i : Nat) (ab : List (Option Rec)) (st : Int)
    (hl : ab.length = pb.length) (hn : i + n = pb.length) (hst : n = 0 → st = SUCCESS)
    (hdone : ∀ j, j < i → ab[j]? = pb[j]?.map stored)
    (hr : ∀ j, i ≤ j → j < ab.length → ∃ r, ab[j]? = some (some r)) :
    storeLoop pb n i ab st = .ok (SUCCESS, pb.map stored) := by
  induction n generalizing i ab st with
  | zero =>
    simp only [storeLoop]
    rw [hst rfl]
    congr 2
    apply List.ext_getElem?
    intro j
    by_cases hj : j < i
    · rw [hdone j hj, List.getElem?_map]
    · rw [List.getElem?_eq_none (by omega), List.getElem?_eq_none (by simp; omega)]
  | succ n ih =>
    obtain ⟨r, h1⟩ := hr i (by omega) (by omega)
    have h2 : pb[i]? = some pb[i] := List.getElem?_eq_getElem (by omega)
    rw [storeLoop, store_ok ab pb i r _ h1 h2, Res.ok_bind, if_pos rfl]
    refine ih (i + 1) _ _ (by simpa using hl) (by omega) (fun _ => rfl) ?_ ?_
    · intro j hj
      by_cases hji : j = i
      · subst hji
        rw [List.getElem?_set_self (by omega), h2]; rfl
      · rw [List.getElem?_set_ne (Ne.symm hji)]
        exact hdone j (by omega)
    · intro j hj hjl
      rw [List.getElem?_set_ne (by omega)]
      exact hr j (by omega) (by simpa using hjl)

end SixTrack.ParticlesAddr
