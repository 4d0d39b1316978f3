import Verif.Assign
import Mathlib.Data.List.Perm.Basic
import Mathlib.Data.List.Nodup
import Mathlib.Data.List.Range
import Mathlib.Tactic.ByContra

/-! # Property C18: address assignments -/

namespace SixTrack
open Assign

namespace Assign

/-- The item is meant for this pair of buffers. -/
def Selected (c : Cfg) (it : Item) : Prop := it.srcBuffer = c.srcId ∧ it.destBuffer = c.destId

instance (c : Cfg) (it : Item) : Decidable (Selected c it) := by unfold Selected; infer_instance

/-- The word at `offset` in object `index` of a managed buffer exists, has the given type and is
aligned. -/
structure HasWord (b : Buf) (i offset typeId : Nat) : Prop where
  buf : b.addr ≠ 0
  slot : 0 < b.slot
  index : i < b.objs.length
  addr : b.objs[i].addr ≠ 0
  inside : offset + 8 ≤ b.objs[i].size
  range : b.objs[i].addr + b.objs[i].size ≤ 2 ^ 64
  type : b.objs[i].type = typeId
  aligned : (b.objs[i].addr + offset) % 8 = 0
  slotAligned : (b.objs[i].addr + offset) % b.slot = 0

/-- Address of the word an item refers to: offset plus the begin of the object, or of the raw
memory. -/
def wordOf (raw : Bool) (b : Buf) (index offset : Nat) : Nat :=
  if raw then b.addr + offset else ((b.objs[index]?).map Obj.addr).getD 0 + offset

/-- Where the item has to write. -/
def destOf (c : Cfg) (it : Item) : Nat := wordOf it.destRaw c.dest it.destIndex it.destOffset

/-- What the item has to write. -/
def srcOf (c : Cfg) (it : Item) : Nat := wordOf it.srcRaw c.src it.srcIndex it.srcOffset

/-- Source and destination of the item exist. -/
structure Proper (c : Cfg) (it : Item) : Prop where
  dest : if it.destRaw then c.dest.addr ≠ 0 ∧ it.destOffset + 8 ≤ c.dest.len ∧
      (c.dest.addr + it.destOffset) % 8 = 0
    else HasWord c.dest it.destIndex it.destOffset it.destType
  src : if it.srcRaw then c.src.addr ≠ 0 ∧ c.src.addr + it.srcOffset < 2 ^ 64
    else HasWord c.src it.srcIndex it.srcOffset it.srcType

theorem wordAddr_ok {b : Buf} {i o t : Nat} (h : HasWord b i o t) :
    wordAddr b i o t = .ok (wordOf false b i o) ∧ wordOf false b i o ≠ 0 ∧
      wordOf false b i o % 8 = 0 := by
  have hr := h.range
  have hin := h.inside
  have hix := h.index
  have e : wordOf false b i o = b.objs[i].addr + o := by
    unfold wordOf
    simp [List.getElem?_eq_getElem hix]
  have h1 : Assign.u64 (b.objs[i].addr + o) = b.objs[i].addr + o := Nat.mod_eq_of_lt (by omega)
  have h2 : Assign.u64 (o + 8) ≤ b.objs[i].size :=
    Nat.le_trans (Nat.mod_le _ _) h.inside
  refine ⟨?_, ?_, ?_⟩
  · unfold wordAddr getObject
    rw [dif_pos hix, Res.ok_bind]
    simp only
    rw [if_neg h.addr, if_neg (by have := h.slot; omega), h1,
      if_pos ⟨h.slotAligned, h.aligned, h2, h.type⟩, e]
    rfl
  · rw [e]; have := h.addr; omega
  · rw [e]; exact h.aligned

/-- One item that is meant for the buffers stores the address of its source in its destination. -/
theorem step_selected {c : Cfg} {it : Item} (hs : Selected c it) (hp : Proper c it) (m : Mem) :
    step c (some it) m =
      .ok (fun b => if b = destOf c it then srcOf c it else m b, true) := by
  have hsrc : (if it.srcRaw then .ok (srcAddrRaw it c.src) else srcAddrManaged it c.src) =
      Res.ok (srcOf c it) := by
    have := hp.src
    by_cases hr : it.srcRaw = true
    · rw [if_pos hr] at this ⊢
      unfold srcAddrRaw srcOf wordOf
      rw [if_pos ⟨hr, this.1⟩, if_pos hr]
      unfold Assign.u64
      rw [Nat.mod_eq_of_lt this.2]
    · rw [if_neg hr] at this ⊢
      have hr' : it.srcRaw = false := by simpa using hr
      unfold srcAddrManaged srcOf
      rw [if_pos ⟨hr', this.buf⟩, (wordAddr_ok this).1, hr']
  have hdst : (if it.destRaw then destPtrRaw it c.dest else destPtrManaged it c.dest) =
      Res.ok (destOf c it) ∧ destOf c it ≠ 0 ∧ destOf c it % 8 = 0 := by
    have := hp.dest
    by_cases hr : it.destRaw = true
    · rw [if_pos hr] at this ⊢
      unfold destPtrRaw destOf wordOf
      rw [if_pos ⟨hr, this.1⟩, if_pos hr, if_pos this.2.1]
      exact ⟨rfl, by omega, this.2.2⟩
    · rw [if_neg hr] at this ⊢
      have hr' : it.destRaw = false := by simpa using hr
      unfold destPtrManaged destOf
      rw [if_pos ⟨hr', this.buf, this.slot⟩, hr']
      exact wordAddr_ok this
  unfold step
  simp only
  rw [if_pos (show it.srcBuffer = c.srcId ∧ it.destBuffer = c.destId from hs), hsrc, Res.ok_bind, hdst.1, Res.ok_bind, if_pos hdst.2.1]
  unfold store
  rw [if_pos hdst.2.2]
  rfl

theorem step_other {c : Cfg} {it : Option Item} (h : ∀ i, it = some i → ¬ Selected c i) (m : Mem) :
    step c it m = .ok (m, true) := by
  cases it with
  | none => rfl
  | some i =>
    unfold step
    simp only
    rw [if_neg (show ¬ (i.srcBuffer = c.srcId ∧ i.destBuffer = c.destId) from h i rfl)]

/-- The kernel run by one work-item goes through its indices in order. -/
theorem kernel_eq_trace (c : Cfg) (items : List (Option Item)) (stride : Nat) :
    ∀ k idx m ok, k = items.length - idx →
      kernel c items stride idx m ok = runTrace c items (indices items.length stride idx) m ok := by
  intro k
  induction k using Nat.strongRecOn with
  | _ k ih =>
    intro idx m ok hk
    rw [kernel, indices]
    by_cases h : idx < items.length ∧ 0 < stride
    · rw [dif_pos h, dif_pos h]
      rw [runTrace, dif_pos h.1]
      congr 1
      funext x
      obtain ⟨m', s⟩ := x
      exact ih (items.length - (idx + stride)) (by omega) _ _ _ rfl
    · rw [dif_neg h, dif_neg h]
      rfl

theorem mem_indices (n stride : Nat) (hs : 0 < stride) :
    ∀ k idx i, k = n - idx → (i ∈ indices n stride idx ↔ idx ≤ i ∧ i < n ∧ i % stride = idx % stride) := by
  intro k
  induction k using Nat.strongRecOn with
  | _ k ih =>
    intro idx i hk
    rw [indices]
    by_cases h : idx < n ∧ 0 < stride
    · rw [dif_pos h, List.mem_cons, ih (n - (idx + stride)) (by omega) _ _ rfl, Nat.add_mod_right]
      constructor
      · rintro (rfl | ⟨h1, h2, h3⟩)
        · exact ⟨Nat.le_refl _, h.1, rfl⟩
        · exact ⟨by omega, h2, h3⟩
      · rintro ⟨h1, h2, h3⟩
        by_cases he : i = idx
        · exact Or.inl he
        · refine Or.inr ⟨?_, h2, h3⟩
          have h4 : (i - idx) % stride = 0 := Nat.sub_mod_eq_zero_of_mod_eq h3
          have h5 := Nat.div_add_mod (i - idx) stride
          have h6 : 1 ≤ (i - idx) / stride := by
            by_contra hlt
            have : (i - idx) / stride = 0 := Nat.lt_one_iff.1 (Nat.not_le.1 hlt)
            rw [this, h4] at h5
            omega
          have : stride * 1 ≤ stride * ((i - idx) / stride) := Nat.mul_le_mul_left _ h6
          omega
    · rw [dif_neg h]
      simp only [List.not_mem_nil, false_iff]
      omega

theorem nodup_indices (n stride : Nat) (hs : 0 < stride) :
    ∀ k idx, k = n - idx → (indices n stride idx).Nodup := by
  intro k
  induction k using Nat.strongRecOn with
  | _ k ih =>
    intro idx hk
    rw [indices]
    by_cases h : idx < n ∧ 0 < stride
    · rw [dif_pos h, List.nodup_cons]
      refine ⟨?_, ih (n - (idx + stride)) (by omega) _ rfl⟩
      rw [mem_indices n stride hs _ _ _ rfl]
      omega
    · rw [dif_neg h]
      exact List.nodup_nil

/-- The indices of `W` work-items, one after the other. -/
def allIndices (n W : Nat) : List Nat := (List.range W).flatMap (indices n W)

/-- Together the work-items go through every index exactly once. -/
theorem allIndices_perm (n W : Nat) (hW : 0 < W) : (allIndices n W).Perm (List.range n) := by
  unfold allIndices
  rw [List.perm_ext_iff_of_nodup]
  · intro i
    rw [List.mem_flatMap, List.mem_range]
    constructor
    · rintro ⟨w, hw, hi⟩
      exact ((mem_indices n W hW _ _ _ rfl).1 hi).2.1
    · intro hi
      refine ⟨i % W, List.mem_range.2 (Nat.mod_lt _ hW), (mem_indices n W hW _ _ _ rfl).2 ⟨?_, hi, ?_⟩⟩
      · exact Nat.mod_le _ _
      · rw [Nat.mod_mod]
  · rw [List.nodup_flatMap]
    refine ⟨fun w _ => nodup_indices n W hW _ _ rfl, ?_⟩
    refine List.Pairwise.imp_of_mem ?_ (List.nodup_range (n := W))
    intro a b ha hb hab
    rw [List.mem_range] at ha hb
    intro i hia hib
    have h1 := ((mem_indices n W hW _ _ _ rfl).1 hia).2.2
    have h2 := ((mem_indices n W hW _ _ _ rfl).1 hib).2.2
    rw [Nat.mod_eq_of_lt ha] at h1
    rw [Nat.mod_eq_of_lt hb] at h2
    exact hab (by omega)
  · exact List.nodup_range

end Assign

/-- **C18**: any number `W` of work-items, item `w` starting at index `w` with stride `W`, and any
order `trace` in which the items get processed (any interleaving of the work-items is a permutation
of the indices).  If source and destination of all selected items exist and the destinations are
distinct, the outcome is success, every selected item's destination holds the address of its source,
and no other word has changed. -/
theorem C18_any_schedule (c : Cfg) (items : List (Option Item)) (W : Nat) (hW : 0 < W)
    (trace : List Nat) (ht : trace.Perm (allIndices items.length W)) (m : Mem)
    (hp : ∀ it, some it ∈ items → Selected c it → Proper c it)
    (hd : ∀ (i j : Nat) (a b : Item), items[i]? = some (some a) → items[j]? = some (some b) →
      Selected c a → Selected c b → destOf c a = destOf c b → i = j) :
    ∃ m', runTrace c items trace m true = .ok (m', true) ∧
      (∀ it, some it ∈ items → Selected c it → m' (destOf c it) = srcOf c it) ∧
      (∀ a, (∀ it, some it ∈ items → Selected c it → a ≠ destOf c it) → m' a = m a) := by
  have hperm : trace.Perm (List.range items.length) := ht.trans (allIndices_perm _ _ hW)
  have hnd : trace.Nodup := hperm.nodup_iff.2 List.nodup_range
  have hlt : ∀ i ∈ trace, i < items.length := fun i hi => List.mem_range.1 (hperm.mem_iff.1 hi)
  -- the run, for any duplicate-free list of indices
  have key : ∀ (tr : List Nat) (m : Mem), tr.Nodup → (∀ i ∈ tr, i < items.length) →
      ∃ m', runTrace c items tr m true = .ok (m', true) ∧
        (∀ i ∈ tr, ∀ it, items[i]? = some (some it) → Selected c it →
          m' (destOf c it) = srcOf c it) ∧
        (∀ a, (∀ i ∈ tr, ∀ it, items[i]? = some (some it) → Selected c it → a ≠ destOf c it) →
          m' a = m a) := by
    intro tr
    induction tr with
    | nil => intro m _ _; exact ⟨m, rfl, by simp, fun _ _ => rfl⟩
    | cons i rest ih =>
      intro m hn hl
      rw [List.nodup_cons] at hn
      have hi : i < items.length := hl i (by simp)
      have hget : items[i]? = some items[i] := List.getElem?_eq_getElem hi
      by_cases hsel : ∃ it, items[i] = some it ∧ Selected c it
      · obtain ⟨it, he, hs⟩ := hsel
        have hpr : Proper c it := hp it (by rw [← he]; exact List.getElem_mem hi) hs
        obtain ⟨m', h1, h2, h3⟩ := ih (fun b => if b = destOf c it then srcOf c it else m b) hn.2
          (fun j hj => hl j (by simp [hj]))
        refine ⟨m', ?_, ?_, ?_⟩
        · rw [runTrace, dif_pos hi, he, step_selected hs hpr, Res.ok_bind]
          exact h1
        · intro j hj jt hjt hjs
          rw [List.mem_cons] at hj
          rcases hj with rfl | hj
          · rw [hget, he] at hjt
            obtain rfl : it = jt := by simpa using hjt
            rw [h3]
            · simp
            · intro k hk kt hkt hks heq
              have := hd _ _ it kt (by rw [hget, he]) hkt hs hks heq
              subst this
              exact hn.1 hk
          · exact h2 j hj jt hjt hjs
        · intro a ha
          rw [h3 a (fun j hj jt hjt hjs => ha j (by simp [hj]) jt hjt hjs)]
          rw [if_neg (ha i (by simp) it (by rw [hget, he]) hs)]
      · obtain ⟨m', h1, h2, h3⟩ := ih m hn.2 (fun j hj => hl j (by simp [hj]))
        have hns : ∀ k, items[i] = some k → ¬ Selected c k := fun k hk hs => hsel ⟨k, hk, hs⟩
        refine ⟨m', ?_, ?_, ?_⟩
        · rw [runTrace, dif_pos hi, step_other hns, Res.ok_bind]
          exact h1
        · intro j hj jt hjt hjs
          rw [List.mem_cons] at hj
          rcases hj with rfl | hj
          · rw [hget] at hjt
            exact absurd hjs (hns jt (by simpa using hjt))
          · exact h2 j hj jt hjt hjs
        · intro a ha
          exact h3 a (fun j hj jt hjt hjs => ha j (by simp [hj]) jt hjt hjs)
  obtain ⟨m', h1, h2, h3⟩ := key trace m hnd hlt
  refine ⟨m', h1, ?_, ?_⟩
  · intro it hit hs
    obtain ⟨i, hi, he⟩ := List.getElem_of_mem hit
    exact h2 i (hperm.mem_iff.2 (List.mem_range.2 hi)) it (by rw [List.getElem?_eq_getElem hi, he]) hs
  · intro a ha
    refine h3 a (fun i hi it hit hs => ha it ?_ hs)
    exact List.mem_of_getElem? hit

/-- **C18**: in particular the kernel run by one work-item with stride 1 produces this result, and
so does every other distribution: all of them end with the same memory. -/
theorem C18_same_result (c : Cfg) (items : List (Option Item)) (W : Nat) (hW : 0 < W)
    (trace : List Nat) (ht : trace.Perm (allIndices items.length W)) (m : Mem)
    (hp : ∀ it, some it ∈ items → Selected c it → Proper c it)
    (hd : ∀ (i j : Nat) (a b : Item), items[i]? = some (some a) → items[j]? = some (some b) →
      Selected c a → Selected c b → destOf c a = destOf c b → i = j) :
    runTrace c items trace m true = kernel c items 1 0 m true := by
  obtain ⟨m1, h1, a1, b1⟩ := C18_any_schedule c items W hW trace ht m hp hd
  rw [kernel_eq_trace c items 1 _ 0 m true rfl]
  have : (indices items.length 1 0).Perm (allIndices items.length 1) := by
    unfold allIndices
    simp [List.range_succ]
  obtain ⟨m2, h2, a2, b2⟩ := C18_any_schedule c items 1 (by omega) _ this m hp hd
  rw [h1, h2]
  have : m1 = m2 := by
    funext a
    by_cases h : ∃ it, some it ∈ items ∧ Selected c it ∧ a = destOf c it
    · obtain ⟨it, hi, hs, rfl⟩ := h
      rw [a1 it hi hs, a2 it hi hs]
    · have hn : ∀ it, some it ∈ items → Selected c it → a ≠ destOf c it :=
        fun it hi hs he => h ⟨it, hi, hs, he⟩
      rw [b1 a hn, b2 a hn]
  rw [this]

namespace Assign

/-- Two buffers and three items, one of them for another pair of buffers. -/
def exCfg : Cfg := ⟨⟨4096, 512, 8, [⟨4160, 32, 7⟩, ⟨4192, 16, 9⟩]⟩, 1, ⟨8192, 512, 8, [⟨8256, 64, 3⟩]⟩, 2⟩

def exItems : List (Option Item) :=
  [some ⟨1, 2, 7, 3, 0, 0, 16, 8⟩, none, some ⟨5, 2, 7, 3, 0, 0, 16, 8⟩, some ⟨1, 2, 9, 3, 1, 0, 8, 40⟩]

end Assign

example : ∃ m', runTrace exCfg exItems [3, 1, 0, 2] (fun _ => 0) true = .ok (m', true) ∧
    m' 4176 = 8264 ∧ m' 4200 = 8296 ∧ ∀ a, a ≠ 4176 → a ≠ 4200 → m' a = 0 := by
  have hp : ∀ it, some it ∈ exItems → Selected exCfg it → Proper exCfg it := by
    intro it hit hs
    simp only [exItems, List.mem_cons, Option.some.injEq, List.not_mem_nil, or_false, reduceCtorEq,
      false_or] at hit
    rcases hit with rfl | rfl | rfl
    · exact ⟨⟨by decide, by decide, by decide, by decide, by decide, by decide, by decide, by decide,
        by decide⟩, ⟨by decide, by decide, by decide, by decide, by decide, by decide, by decide,
        by decide, by decide⟩⟩
    · exact absurd hs (by decide)
    · exact ⟨⟨by decide, by decide, by decide, by decide, by decide, by decide, by decide, by decide,
        by decide⟩, ⟨by decide, by decide, by decide, by decide, by decide, by decide, by decide,
        by decide, by decide⟩⟩
  have hd : ∀ (i j : Nat) (a b : Item), exItems[i]? = some (some a) → exItems[j]? = some (some b) →
      Selected exCfg a → Selected exCfg b → destOf exCfg a = destOf exCfg b → i = j := by
    intro i j a b hi hj
    have hi' : i < 4 := (List.getElem?_eq_some_iff.1 hi).1
    have hj' : j < 4 := (List.getElem?_eq_some_iff.1 hj).1
    have h4 : ∀ n, n < 4 → n = 0 ∨ n = 1 ∨ n = 2 ∨ n = 3 := by omega
    rcases h4 i hi' with rfl | rfl | rfl | rfl <;> rcases h4 j hj' with rfl | rfl | rfl | rfl <;>
      simp [exItems] at hi hj <;> subst hi <;> subst hj <;> decide
  obtain ⟨m', h1, h2, h3⟩ := C18_any_schedule exCfg exItems 2 (by decide) [3, 1, 0, 2] (by decide +kernel)
    (fun _ => 0) hp hd
  refine ⟨m', h1, ?_, ?_, ?_⟩
  · exact h2 _ (by simp [exItems]) (by decide : Selected exCfg ⟨1, 2, 7, 3, 0, 0, 16, 8⟩)
  · exact h2 _ (by simp [exItems]) (by decide : Selected exCfg ⟨1, 2, 9, 3, 1, 0, 8, 40⟩)
  · intro a ha hb
    apply h3
    intro it hit hs
    simp only [exItems, List.mem_cons, Option.some.injEq, List.not_mem_nil, or_false, reduceCtorEq,
      false_or] at hit
    rcases hit with rfl | rfl | rfl
    · exact ha
    · exact absurd hs (by decide)
    · exact hb

/-- **C18 is false of the code** for an item whose source does not exist (here: an object of another
type): instead of reporting the failure, the kernel stores a null address in the destination and
returns success. -/
theorem C18_missing_source_violated :
    ∃ m', kernel exCfg [some ⟨1, 2, 7, 4, 0, 0, 16, 8⟩] 1 0 (fun _ => 4711) true = .ok (m', true) ∧
      m' 4176 = 0 := by
  refine ⟨fun b => if b = 4176 then 0 else 4711, ?_, by decide⟩
  rw [kernel_eq_trace _ _ _ _ _ _ _ rfl, show indices _ 1 0 = [0] from by
    rw [indices, dif_pos (by decide), indices, dif_neg (by decide)]]
  rfl

/-- If the place in the destination does not exist (another type, an offset outside of the object, or an index
behind the object after the last), nothing is stored and the failure is reported. -/
theorem C18_missing_destination (c : Cfg) (it : Item) (m : Mem) (hs : Selected c it)
    (hp : it.srcRaw = true ∨ HasWord c.src it.srcIndex it.srcOffset it.srcType)
    (hd : it.destRaw = false) (hb : c.dest.slot = 8)
    (hno : c.dest.objs.length < it.destIndex ∨ ∃ h : it.destIndex < c.dest.objs.length,
      c.dest.objs[it.destIndex].type ≠ it.destType ∨
        it.destOffset + 8 < 2 ^ 64 ∧ c.dest.objs[it.destIndex].size < it.destOffset + 8) (ok : Bool) :
    kernel c [some it] 1 0 m ok = .ok (m, false) := by
  have hdest : destPtrManaged it c.dest = .ok 0 := by
    unfold destPtrManaged
    split_ifs with h0
    · unfold wordAddr getObject
      rcases hno with h | ⟨h, h'⟩
      · rw [dif_neg (by omega), if_neg (by omega)]
        rfl
      · rw [dif_pos h]
        simp only [Res.ok_bind]
        split_ifs with h1 h2 h3
        · rfl
        · omega
        · obtain ⟨-, -, h3, h4⟩ := h3
          rcases h' with h' | ⟨h', h''⟩
          · exact absurd h4 h'
          · unfold u64 at h3
            rw [Nat.mod_eq_of_lt h'] at h3
            omega
        · rfl
    · rfl
  have hstep : step c (some it) m = .ok (m, false) := by
    obtain ⟨a, ha'⟩ : ∃ a, (if it.srcRaw then .ok (srcAddrRaw it c.src) else srcAddrManaged it c.src) = Res.ok a := by
      by_cases h : it.srcRaw = true
      · exact ⟨_, if_pos h⟩
      · rw [if_neg h]
        have hw := hp.resolve_left h
        unfold srcAddrManaged
        rw [if_pos ⟨by simpa using h, hw.buf⟩]
        exact ⟨_, (wordAddr_ok hw).1⟩
    have hs' : it.srcBuffer = c.srcId ∧ it.destBuffer = c.destId := hs
    unfold step
    simp only
    rw [if_pos hs', ha', if_neg (by simp [hd]), hdest]
    rfl
  rw [kernel_eq_trace _ _ _ _ _ _ _ rfl, show indices [some it].length 1 0 = [0] from by
    rw [indices, dif_pos (by simp), indices, dif_neg (by simp)]]
  have h1 : 0 < [some it].length := by simp
  simp only [runTrace, dif_pos h1, List.getElem_cons_zero, hstep, Res.ok_bind, Bool.and_false]

example (m : Mem) : kernel exCfg [some ⟨1, 2, 7, 3, 1, 0, 8, 40⟩] 1 0 m true = .ok (m, false) :=
  C18_missing_destination _ _ _ (by decide) (Or.inr ⟨by decide, by decide, by decide, by decide, by decide, by decide,
    by decide, by decide, by decide⟩) (by decide) (by decide) (Or.inr ⟨by decide, by decide⟩) _

/-- **C18 is false of the code** for an item whose index is the number of objects: the test of the index is
`index <= num_objects`, so the entry behind the last object is read. -/
theorem C18_index_violated (c : Cfg) (it : Item) (m : Mem) (hs : Selected c it)
    (hp : it.srcRaw = true ∨ HasWord c.src it.srcIndex it.srcOffset it.srcType)
    (hd : it.destRaw = false) (hb : c.dest.slot = 8) (ha : c.dest.addr ≠ 0)
    (hno : it.destIndex = c.dest.objs.length) (ok : Bool) :
    kernel c [some it] 1 0 m ok = .ub := by
  have hdest : destPtrManaged it c.dest = .ub := by
    unfold destPtrManaged
    rw [if_pos ⟨hd, ha, by omega⟩]
    unfold wordAddr getObject
    rw [dif_neg (by omega), if_pos hno]
    rfl
  have hstep : step c (some it) m = .ub := by
    obtain ⟨a, ha'⟩ : ∃ a, (if it.srcRaw then .ok (srcAddrRaw it c.src) else srcAddrManaged it c.src) = Res.ok a := by
      by_cases h : it.srcRaw = true
      · exact ⟨_, if_pos h⟩
      · rw [if_neg h]
        have hw := hp.resolve_left h
        unfold srcAddrManaged
        rw [if_pos ⟨by simpa using h, hw.buf⟩]
        exact ⟨_, (wordAddr_ok hw).1⟩
    have hs' : it.srcBuffer = c.srcId ∧ it.destBuffer = c.destId := hs
    unfold step
    simp only
    rw [if_pos hs', ha', if_neg (by simp [hd]), hdest]
    rfl
  rw [kernel_eq_trace _ _ _ _ _ _ _ rfl, show indices [some it].length 1 0 = [0] from by
    rw [indices, dif_pos (by simp), indices, dif_neg (by simp)]]
  have h1 : 0 < [some it].length := by simp
  simp only [runTrace, dif_pos h1, List.getElem_cons_zero, hstep, Res.ub_bind]

example (m : Mem) : kernel exCfg [some ⟨1, 2, 7, 3, 2, 0, 8, 40⟩] 1 0 m true = .ub :=
  C18_index_violated _ _ _ (by decide) (Or.inr ⟨by decide, by decide, by decide, by decide, by decide, by decide,
    by decide, by decide, by decide⟩) (by decide) (by decide) (by decide) (by decide) _

end SixTrack
