import Verif.ClJob
import Verif.Props.ClTrackMore

/-! # Lemmas about tracking several sets with the OpenCL job -/

namespace SixTrack
open ClContext ClRun ClTrack ClJob

/-- The launches for particle sets that OpenCL takes: one for each, with the set as second argument. -/
def setCalls (d : Dev) (k : Nat) (args : List (Option ClVal)) (vs : List (Nat × Nat)) (g : Nat) (f : Nat → Nat)
    (sets : List (Nat × Nat)) : List Call :=
  (sets.filter fun x => decide (Taken d (withValues args ((1, x.1) :: vs)) g (f x.2))).map fun x =>
    ⟨k, withValues args ((1, x.1) :: vs), launchOf g (f x.2)⟩

theorem setCalls_cons (d : Dev) (k : Nat) (args : List (Option ClVal)) (vs : List (Nat × Nat)) (g : Nat) (f : Nat → Nat)
    (x : Nat × Nat) (sets : List (Nat × Nat)) :
    setCalls d k args vs g f (x :: sets) = setCalls d k args vs g f [x] ++ setCalls d k args vs g f sets := by
  unfold setCalls
  by_cases h : Taken d (withValues args ((1, x.1) :: vs)) g (f x.2)
  · simp [h]
  · simp [h]

/-- a call for a set that is not restored; only if the set is the selected one, the argument has to be that already -/
theorem callSet_kept {d : Dev} {t : Tracker} {K : Task → Nat} (h : Staffed t K) {w : Task} (ht : Tells d t K w)
    {min : Nat} (hm : min ≤ arity t.ctx.debug w) {vs : List (Nat × Nat)}
    (hv : ∀ p ∈ vs, p.1 ≠ arity true w - 1 ∧ p.1 ≠ 1) (ha : arity true w - 1 ≠ 1) (p n : Nat)
    (hsel : t.pset = p → SetSelected t K w) :
    Ran d t (K w) (withValues (argsOf t.ctx (K w)) ((1, p) :: vs)) n
      (withValues (argsOf t.ctx (K w)) ((1, p) :: vs)) (t.callSet d w min vs p n false) := by
  by_cases hp : t.pset = p
  · exact callSet_ran h ht (hsel hp) hm hv ha p n false
  · obtain ⟨c', h1, h2, h3, h4⟩ := putValues_eq (K w) ((if t.pset ≠ p then [(1, p)] else []) ++ vs) t.ctx (h.lt w)
    have hargs : argsOf c' (K w) = withValues (argsOf t.ctx (K w)) ((1, p) :: vs) := by
      rw [h3, if_pos hp, List.singleton_append]
    have hlt : K w < c'.kernels.length := by rw [h2.length]; exact h.lt w
    obtain ⟨xs, s, f, f', g1, g2, g3, g4⟩ := perform_ran (d := d) (t := { t with ctx := c' }) (k := K w) n
      hlt (fun hd => by
        obtain ⟨a, b, c, e⟩ := ht (by rw [← h2.debug]; exact hd)
        refine ⟨a, b, c, ?_⟩
        have e' : ((argsOf c' (K w))[arity true w - 1]?).join = some (.buffer t.flagsId) := by
          rw [hargs, withValues_get, ← kArg_eq]
          · exact e
          · intro q hq
            rcases List.mem_cons.1 hq with rfl | hq
            · exact Ne.symm ha
            · exact (hv q hq).1
        cases hx : (argsOf c' (K w))[arity true w - 1]? with
        | none => rw [hx] at e'; simp at e'
        | some x =>
          rw [hx] at e'
          obtain rfl : x = some (.buffer t.flagsId) := e'
          exact List.mem_of_getElem? hx)
    simp only at g1 g2 g3 g4
    rw [h2.debug] at g3 g4
    refine ⟨c', xs, s, f, f', h2, hargs, h4, g1, ?_, g3, g4⟩
    rw [callSet_eq h d w vs p n false hm h1, g2, Res.ok_bind, ← hargs,
      show (if t.pset ≠ p ∧ false = true then [(1, t.pset)] else []) = [] from if_neg (by simp)]
    by_cases hT : Taken d (argsOf c' (K w)) (lastGroup t (K w)) n
    · rw [if_pos (show Taken d _ (lastGroup { t with ctx := c' } (K w)) n from hT), if_pos hT]
      rfl
    · rw [if_neg (show ¬ Taken d _ (lastGroup { t with ctx := c' } (K w)) n from hT), if_neg hT]
      rfl

/-- Between the calls for several sets: nothing but values of arguments of the kernel has changed that the next call sets
anyway. -/
structure Between (K : Task → Nat) (w : Task) (vs : List (Nat × Nat)) (t₀ t : Tracker) : Prop where
  only : OnlyArgs t₀.ctx t.ctx
  others : ∀ j, j ≠ K w → argsOf t.ctx j = argsOf t₀.ctx j
  args : ∀ p, withValues (argsOf t.ctx (K w)) ((1, p) :: vs) = withValues (argsOf t₀.ctx (K w)) ((1, p) :: vs)
  groups : ∀ j, lastGroup t j = lastGroup t₀ j
  rest : t = { t₀ with ctx := t.ctx, execs := t.execs, flags := t.flags, calls := t.calls }
  flags : t₀.ctx.debug = false → t.flags = t₀.flags

theorem Between.refl (K : Task → Nat) (w : Task) (vs : List (Nat × Nat)) (t : Tracker) : Between K w vs t t :=
  ⟨OnlyArgs.refl _, fun _ _ => rfl, fun _ => rfl, fun _ => rfl, rfl, fun _ => rfl⟩

theorem Between.tells {K : Task → Nat} {w : Task} {vs : List (Nat × Nat)} {t₀ t : Tracker} (h : Between K w vs t₀ t) {d : Dev}
    (hv : ∀ p ∈ vs, p.1 ≠ arity true w - 1) (ha : arity true w - 1 ≠ 1) (ht : Tells d t₀ K w) : Tells d t K w := by
  intro hd
  rw [h.only.debug] at hd
  obtain ⟨a, b, c, e⟩ := ht hd
  refine ⟨a, b, c, ?_⟩
  have hv' : ∀ p ∈ (1, 0) :: vs, p.1 ≠ arity true w - 1 := by
    intro q hq
    rcases List.mem_cons.1 hq with rfl | hq
    · exact Ne.symm ha
    · exact hv q hq
  have hf : t.flagsId = t₀.flagsId := by rw [h.rest]
  rw [kArg_eq, ← withValues_get hv', h.args 0, withValues_get hv', ← kArg_eq, hf]
  exact e

/-- Values set twice are those set last. -/
def Settles (vs : List (Nat × Nat)) : Prop :=
  ∀ (l : List (Option ClVal)) (p q : Nat), withValues (withValues l ((1, p) :: vs)) ((1, q) :: vs) = withValues l ((1, q) :: vs)

theorem settles_one {i v : Nat} (hi : i ≠ 1) : Settles [(i, v)] := by
  intro l p q
  simp only [withValues]
  rw [List.set_comm _ _ hi, List.set_set, List.set_set]

theorem settles_three {i j k u v w : Nat} (hi : i ≠ 1) (hj : j ≠ 1) (hk : k ≠ 1) (hij : i ≠ j) (hik : i ≠ k) (hjk : j ≠ k) :
    Settles [(i, u), (j, v), (k, w)] := by
  intro l p q
  simp only [withValues]
  apply List.ext_getElem?
  intro m
  simp only [List.getElem?_set, List.length_set]
  by_cases h1 : 1 = m
  · subst h1
    simp [hi, hj, hk]
  by_cases h2 : i = m
  · subst h2
    simp [Ne.symm hij, Ne.symm hik]
  by_cases h3 : j = m
  · subst h3
    simp [Ne.symm hjk]
  by_cases h4 : k = m
  · subst h4
    simp
  · simp [h1, h2, h3, h4]

/-- the call for one set in the loop -/
theorem between_step {d : Dev} {t₀ t : Tracker} {K : Task → Nat} (h : Staffed t₀ K) {w : Task} (ht : Tells d t₀ K w)
    {min : Nat} (hm : ∀ b, min ≤ arity b w) {vs : List (Nat × Nat)}
    (hv : ∀ p ∈ vs, p.1 ≠ arity true w - 1 ∧ p.1 ≠ 1) (ha : arity true w - 1 ≠ 1) (hset : Settles vs)
    (hb : Between K w vs t₀ t) (p n : Nat) (hsel : t₀.pset = p → SetSelected t K w) :
    ∃ s t', t.callSet d w min vs p n false = .ok (s, t') ∧ Between K w vs t₀ t' ∧
      argsOf t'.ctx (K w) = withValues (argsOf t₀.ctx (K w)) ((1, p) :: vs) ∧
      t'.calls = t.calls ++ setCalls d (K w) (argsOf t₀.ctx (K w)) vs (lastGroup t₀ (K w)) (fun n => n) [(p, n)] ∧
      (s = 0#32 ↔ Taken d (withValues (argsOf t₀.ctx (K w)) ((1, p) :: vs)) (lastGroup t₀ (K w)) n ∧
        (t₀.ctx.debug = true → d.flags = 0#64)) := by
  have hk : t.kernel = t₀.kernel := by rw [hb.rest]
  have hps : t.pset = t₀.pset := by rw [hb.rest]
  have hdb : t.ctx.debug = t₀.ctx.debug := hb.only.debug
  obtain ⟨c', xs, s, f, f', r1, r2, r3, r4, r5, r6, r7⟩ := callSet_kept (h.update hb.only hk)
    (hb.tells (fun q hq => (hv q hq).1) ha ht) (hm _) hv ha p n (fun e => hsel (hps ▸ e))
  rw [hb.args] at r2 r5
  rw [hb.groups] at r5
  rw [hdb] at r6 r7
  have hstep : ∀ f'' cs, (t₀.ctx.debug = false → f'' = t.flags) →
      Between K w vs t₀ { t with ctx := c', execs := xs, flags := f'', calls := cs } := by
    intro f'' cs hf
    refine ⟨hb.only.trans r1, fun j hj => (r3 j hj).trans (hb.others j hj), fun q => ?_, fun j => ?_, ?_, ?_⟩
    · simp only
      rw [r2, hset]
    · exact (r4 j).trans (hb.groups j)
    · simp only
      rw [hb.rest]
    · intro hd
      exact (hf hd).trans (hb.flags hd)
  by_cases hT : Taken d (withValues (argsOf t₀.ctx (K w)) ((1, p) :: vs)) (lastGroup t₀ (K w)) n
  · rw [if_pos hT] at r5
    refine ⟨_, _, r5, hstep f _ fun hd => (r6 hd).2.1, r2, ?_, ?_⟩
    · simp [setCalls, hT]
    · cases hd : t₀.ctx.debug with
      | false => simp [(r6 hd).1, hT]
      | true => simp [(r7 hd).1, hT]
  · rw [if_neg hT] at r5
    refine ⟨_, _, r5, hstep f' _ fun hd => (r6 hd).2.2, r2, ?_, ?_⟩
    · simp [setCalls, hT]
    · simp [hT]

/-- the loop for sets that are not the selected one -/
theorem trackSets_spec {d : Dev} {t₀ : Tracker} {K : Task → Nat} (h : Staffed t₀ K) {w : Task} (ht : Tells d t₀ K w)
    {min : Nat} (hm : ∀ b, min ≤ arity b w) {vs : List (Nat × Nat)}
    (hv : ∀ p ∈ vs, p.1 ≠ arity true w - 1 ∧ p.1 ≠ 1) (ha : arity true w - 1 ≠ 1) (hset : Settles vs)
    (call : Tracker → Nat → Nat → Res (BitVec 32 × Tracker)) :
    ∀ (sets : List (Nat × Nat)) (t : Tracker) (s : BitVec 32) (_ : ∀ x ∈ sets, x.1 ≠ t₀.pset)
      (_ : ∀ x ∈ sets, ∀ t, t.particles = t₀.particles → call t x.1 x.2 = t.callSet d w min vs x.1 x.2 false),
      Between K w vs t₀ t →
      (∃ p, argsOf t.ctx (K w) = withValues (argsOf t₀.ctx (K w)) ((1, p) :: vs)) →
      ∃ s' t', trackSets call t s sets = .ok (s', t') ∧ Between K w vs t₀ t' ∧
        (∃ p, argsOf t'.ctx (K w) = withValues (argsOf t₀.ctx (K w)) ((1, p) :: vs)) ∧
        t'.calls = t.calls ++ setCalls d (K w) (argsOf t₀.ctx (K w)) vs (lastGroup t₀ (K w)) (fun n => n) sets ∧
        (s' = 0#32 ↔ s = 0#32 ∧ ∀ x ∈ sets, Taken d (withValues (argsOf t₀.ctx (K w)) ((1, x.1) :: vs))
          (lastGroup t₀ (K w)) x.2 ∧ (t₀.ctx.debug = true → d.flags = 0#64)) := by
  intro sets
  induction sets with
  | nil => exact fun t s _ _ hb hp => ⟨s, t, rfl, hb, hp, by simp [setCalls], by simp⟩
  | cons x sets ih =>
    obtain ⟨p, n⟩ := x
    intro t s hne hcall hb _
    obtain ⟨s1, t1, e1, b1, a1, c1, z1⟩ := between_step h ht hm hv ha hset hb p n
      (fun e => absurd e.symm (hne (p, n) (by simp)))
    obtain ⟨s2, t2, e2, b2, a2, c2, z2⟩ := ih t1 (s ||| s1) (fun x hx => hne x (by simp [hx]))
      (fun x hx => hcall x (by simp [hx])) b1 ⟨p, a1⟩
    refine ⟨s2, t2, ?_, b2, a2, ?_, ?_⟩
    · unfold trackSets
      rw [hcall (p, n) (by simp) t (by rw [hb.rest]), e1, Res.ok_bind]
      exact e2
    · rw [c2, c1, List.append_assoc, ← setCalls_cons]
    · rw [z2, BitVec.or_eq_zero_iff, z1]
      simp [and_assoc]

end SixTrack
