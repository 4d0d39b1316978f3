import Verif.Props.ClArgumentMore

/-!
# C94: arguments of OpenCL kernels, making them, raw memory and regions
-/

namespace SixTrack

open SixTrack.Arg (Bytes Fmt Host Loc hostRemap readFirst overwrite)
open SixTrack.ClArg
open SixTrack.ClContext (Ctx Kernel ClVal make)

/-! ## Making an argument -/

/-- An argument made with a size has memory of that size if there is memory; without a node, a remapping kernel or a size it
is empty. -/
theorem C94_new_size (o : Cl) (s : Sys) (n : Nat) :
    (∀ b, o.alloc n = some b → 0 < n → s.ctx.hasNode = true → s.ctx.hasRemapKernel = true →
      ∃ d, HasMemory (newSize o s n).1 (newSize o s n).2 b d ∧ d.length = n ∧ (newSize o s n).2.buf = none ∧
        ∀ k, k ≠ b → (newSize o s n).1.dev k = s.dev k) ∧
    (n = 0 ∨ s.ctx.hasNode = false ∨ s.ctx.hasRemapKernel = false → newSize o s n = (s, ⟨none, none, 0⟩)) := by
  constructor
  · intro b hb h0 h1 h2
    unfold newSize
    rw [if_pos ⟨h0, h1, h2⟩]
    unfold allocate
    rw [hb]
    refine ⟨(List.range n).map o.junk, ⟨rfl, by simp [Sys.put], by simp⟩, by simp, rfl, ?_⟩
    intro k hk
    simp [Sys.put, hk]
  · intro h
    unfold newSize
    rw [if_neg]
    · rfl
    · rintro ⟨h0, h1, h2⟩
      rcases h with h | h | h
      · omega
      · simp [h] at h1
      · simp [h] at h2

example : clFine.alloc 4 = some 5 ∧ clNormal.ctx.hasNode = true ∧ clNormal.ctx.hasRemapKernel = true := by decide +kernel

/-- An argument made from a buffer has just the size of the buffer, refers to it, and its memory is the image. -/
theorem C94_new_buf {f : Fmt} {valid : Nat → Prop} {img : Nat → Bytes → Prop} (hf : Images f valid img) {o : Cl}
    (ho : o.Works) {s : Sys} (hs : CanRemap s) {h : Host} {i : Nat} {x : Bytes} (hx : HostImage img h i x) {b : Nat}
    (hb : o.alloc x.length = some b) (hv : valid (o.addr b)) :
    ∃ s' y, newBuf f o s h i = .ok (some 0, s', ⟨some b, some i, x.length⟩) ∧ img (o.addr b) y ∧ s'.dev b = some y ∧
      y.length = x.length ∧ (∀ k, k ≠ b → s'.dev k = s.dev k) ∧ CanRemap s' := by
  have hs' : CanRemap (s.put b ((List.range x.length).map o.junk)) := by
    obtain ⟨k, hk, hi, hc⟩ := hs
    exact ⟨k, ⟨hk.node, hk.kernel, hk.num⟩, hi, hc⟩
  obtain ⟨s', y, e, iy, ly, _, _, hd, ho', hr, _⟩ := C94_write hf ho hs'
    (a := ⟨some b, none, x.length⟩) (b := b) (d := (List.range x.length).map o.junk)
    ⟨rfl, by simp [Sys.put], by simp⟩ hx hv (Nat.le_refl _)
  obtain ⟨k, hk, _⟩ := id hs
  refine ⟨s', y, ?_, iy, ?_, ly, ?_, hr⟩
  · unfold newBuf
    rw [hx.2.2.1, if_pos ⟨hx.2.1, hk.node, hk.has⟩]
    unfold allocate
    rw [hb]
    simp only [e, Res.ok_bind]
  · rw [hd, List.drop_of_length_le (by simp), List.append_nil]
  · intro j hj
    rw [ho' j hj]
    simp [Sys.put, hj]

example : ∃ s', newBuf toyFmt clFine clDebug toyHost 0 = .ok (some 0, s', ⟨some 5, some 0, 3⟩) := by
  obtain ⟨s', _, e, _⟩ := C94_new_buf toy_images.1 clFine_works clDebug_remaps (toyHost_image 0 (by decide))
    (b := 5) rfl (by decide)
  exact ⟨s', e⟩

/-- **C94 (an argument has memory for its size), violated**: without memory on the device the argument has the size
nevertheless, and no transfer to or from it succeeds. -/
theorem C94_no_memory_violated {o : Cl} {n : Nat} (h : o.alloc n = none) {s : Sys} (h0 : 0 < n)
    (h1 : s.ctx.hasNode = true) (h2 : s.ctx.hasRemapKernel = true) :
    newSize o s n = (s, ⟨none, none, n⟩) ∧
      ∀ (o' : Cl) (t : Sys) (off : Nat) (x : Bytes) (m : Nat),
        (enqueueWrite o' t (newSize o s n).2.mem off x).1 = false ∧ enqueueRead o' t (newSize o s n).2.mem m = none := by
  have e : newSize o s n = (s, ⟨none, none, n⟩) := by
    unfold newSize
    rw [if_pos ⟨h0, h1, h2⟩]
    unfold allocate
    rw [h]
  rw [e]
  exact ⟨rfl, fun _ _ _ _ _ => ⟨rfl, rfl⟩⟩

example : clFull.alloc 4 = none ∧ clNormal.ctx.hasNode = true ∧ clNormal.ctx.hasRemapKernel = true := by decide +kernel

/-! ## Raw memory -/

/-- Raw memory of just the size of the argument comes back as it was written. -/
theorem C94_raw {o : Cl} (ho : o.Works) {s : Sys} (hn : s.ctx.hasNode = true) {a : ClArg.Argument} {b : Nat} {d : Bytes}
    (ha : HasMemory s a b d) (h0 : 0 < a.size) {h h' : Host} {p q : Nat} (hp : a.size ≤ (h.mem (.raw p)).length)
    (hq : a.size ≤ (h'.mem (.raw q)).length) :
    ∃ s', writeRaw o s a h p a.size = .ok (true, s') ∧ s'.dev b = some ((h.mem (.raw p)).take a.size) ∧
      (∀ k, k ≠ b → s'.dev k = s.dev k) ∧ ∃ h'', readRaw o s' a h' q a.size = .ok (true, h'') ∧
        h''.mem (.raw q) = (h.mem (.raw p)).take a.size ++ (h'.mem (.raw q)).drop a.size ∧
        ∀ l, l ≠ .raw q → h''.mem l = h'.mem l := by
  obtain ⟨am, ad, al⟩ := ha
  have hl : ((h.mem (.raw p)).take a.size).length = a.size := by
    rw [List.length_take]
    omega
  have hd : (s.put b ((h.mem (.raw p)).take a.size)).dev b = some ((h.mem (.raw p)).take a.size) := by simp [Sys.put]
  refine ⟨s.put b ((h.mem (.raw p)).take a.size), ?_, hd, ?_, (h'.put (.raw q)
    ((h.mem (.raw p)).take a.size ++ (h'.mem (.raw q)).drop a.size)), ?_, ?_, ?_⟩
  · unfold writeRaw readFirst
    rw [if_pos ⟨h0, rfl, hn⟩, if_pos hp]
    simp only [Res.ok_bind]
    rw [am, enqueueWrite_ok ho.writes ad (by omega) (by omega), hl, List.take_zero, List.nil_append, Nat.zero_add, al,
      List.drop_length, List.append_nil]
  · intro k hk
    simp [Sys.put, hk]
  · unfold readRaw
    rw [if_pos ⟨h0, rfl, hn⟩, am, enqueueRead_ok ho.reads hd h0 (by omega)]
    simp only
    rw [List.take_of_length_le (by omega)]
    unfold overwrite
    rw [hl, if_pos hq]
    rfl
  · simp [Host.put]
  · intro l hl'
    simp [Host.put, hl']

example : ∃ s', writeRaw clFine clNormal clArg8 tightHost 2 8 = .ok (true, s') ∧ s'.dev 3 = some [4, 5, 6, 7, 8, 9, 10, 2] := by
  obtain ⟨s', e, d, _⟩ := C94_raw clFine_works (s := clNormal) (by decide +kernel) (clArg8_memory _) (by decide)
    (h := tightHost) (h' := tightHost) (p := 2) (q := 1) (by decide) (by decide)
  exact ⟨s', e, d⟩

/-- Raw memory of another size is refused. -/
theorem C94_raw_refused (o : Cl) (s : Sys) (a : ClArg.Argument) (h : Host) (p n : Nat) (hn : n ≠ a.size) :
    writeRaw o s a h p n = .ok (false, s) ∧ readRaw o s a h p n = .ok (false, h) := by
  unfold writeRaw readRaw
  rw [if_neg (fun c => hn c.2.1), if_neg (fun c => hn c.2.1)]
  exact ⟨rfl, rfl⟩

example : (7 : Nat) ≠ clArg8.size := by decide

/-! ## Regions -/

/-- The byte a region has for the place `p` of the argument, if there is one. -/
def regionByte (p : Nat) (r : Region) : Option UInt8 :=
  if r.offset ≤ p ∧ p < r.offset + r.length then (r.value.getD [])[p - r.offset]? else none

/-- The region can be written: it has as many bytes as it says, and lies inside of the argument. -/
def ClArg.Region.Inside (n : Nat) (r : Region) : Prop :=
  ∃ v, r.value = some v ∧ 0 < r.length ∧ r.length ≤ v.length ∧ r.offset + r.length ≤ n

private theorem patch_byte (d v : Bytes) (off : Nat) (h : off + v.length ≤ d.length) (p : Nat) :
    (d.take off ++ v ++ d.drop (off + v.length))[p]? = if off ≤ p ∧ p < off + v.length then v[p - off]? else d[p]? := by
  have lt : (d.take off).length = off := by
    rw [List.length_take]
    omega
  by_cases h1 : p < off
  · rw [if_neg (by omega), List.append_assoc, List.getElem?_append_left (by omega), List.getElem?_take, if_pos h1]
  · by_cases h2 : p < off + v.length
    · rw [if_pos ⟨by omega, h2⟩, List.append_assoc, List.getElem?_append_right (by omega), lt,
        List.getElem?_append_left (by omega)]
    · rw [if_neg (by omega), List.getElem?_append_right (by rw [List.length_append, lt]; omega), List.getElem?_drop,
        List.length_append, lt]
      congr 1
      omega

private theorem loop_ok {o : Cl} (ho : o.writes = true) {a : ClArg.Argument} {b : Nat} (am : a.mem = some b)
    (hsz : a.size < 2^64) : ∀ (rs : List Region) (s : Sys) (d : Bytes), s.dev b = some d → a.size = d.length →
    (∀ r ∈ rs, r.Inside a.size) →
    ∃ s' d', regionsLoop o a s rs = .ok (true, s') ∧ s'.dev b = some d' ∧ d'.length = d.length ∧ s'.ctx = s.ctx ∧
      (∀ k, k ≠ b → s'.dev k = s.dev k) ∧
      ∀ p, d'[p]? = (rs.reverse.findSome? (regionByte p)).or d[p]? := by
  intro rs
  induction rs with
  | nil =>
    intro s d hd _ _
    exact ⟨s, d, rfl, hd, rfl, rfl, fun _ _ => rfl, fun p => by simp⟩
  | cons r rs ih =>
    intro s d hd al hr
    obtain ⟨v, hv, h0, hlv, hin⟩ := hr r (List.mem_cons_self ..)
    have lv : (v.take r.length).length = r.length := by
      rw [List.length_take]
      omega
    have lp : (d.take r.offset ++ v.take r.length ++ d.drop (r.offset + (v.take r.length).length)).length = d.length := by
      rw [List.length_append, List.length_append, List.length_take, List.length_drop, lv]
      omega
    obtain ⟨s', d', e, hd', l', c', o', b'⟩ := ih
      (s.put b (d.take r.offset ++ v.take r.length ++ d.drop (r.offset + (v.take r.length).length)))
      (d.take r.offset ++ v.take r.length ++ d.drop (r.offset + (v.take r.length).length)) (by simp [Sys.put]) (by rw [al, lp]) (fun r' h' => hr r' (List.mem_cons_of_mem _ h'))
    refine ⟨s', d', ?_, hd', by rw [l', lp], c', ?_, ?_⟩
    · unfold regionsLoop
      rw [hv]
      simp only
      rw [if_neg]
      · unfold readFirst
        rw [if_pos hlv]
        simp only [Res.ok_bind]
        rw [am, enqueueWrite_ok ho hd (by omega) (by omega)]
        exact e
      · rw [Nat.mod_eq_of_lt (by omega)]
        omega
    · intro k hk
      rw [o' k hk]
      simp [Sys.put, hk]
    · intro p
      rw [b' p, patch_byte d _ _ (by omega), lv, List.reverse_cons, List.findSome?_append]
      have er : [r].findSome? (regionByte p) = regionByte p r := by
        cases h : regionByte p r <;> simp [h]
      rw [er]
      cases rs.reverse.findSome? (regionByte p) with
      | some c => rfl
      | none =>
        simp only [Option.none_or]
        unfold regionByte
        rw [hv]
        by_cases hc : r.offset ≤ p ∧ p < r.offset + r.length
        · rw [if_pos hc, if_pos hc, Option.getD_some, List.getElem?_take, if_pos (by omega)]
          rw [List.getElem?_eq_getElem (by omega)]
          rfl
        · rw [if_neg hc, if_neg hc]
          rfl

/-- Regions inside of the argument are written: every byte is that of the last region it lies in, and as before if it lies
in none. -/
theorem C94_regions {o : Cl} (ho : o.writes = true) {s : Sys} (hn : s.ctx.hasNode = true) {a : ClArg.Argument} {b : Nat}
    {d : Bytes} (ha : HasMemory s a b d) (hsz : a.size < 2^64) (h0 : 0 < a.size) {rs : List Region} (hne : rs ≠ [])
    (hr : ∀ r ∈ rs, r.Inside a.size) :
    ∃ s' d', updateRegions o s a rs = .ok (true, s') ∧ HasMemory s' a b d' ∧ (∀ k, k ≠ b → s'.dev k = s.dev k) ∧
      ∀ p, d'[p]? = (rs.reverse.findSome? (regionByte p)).or d[p]? := by
  obtain ⟨am, ad, al⟩ := ha
  obtain ⟨s', d', e, hd, l, _, ot, hb⟩ := loop_ok ho am hsz rs s d ad al hr
  refine ⟨s', d', ?_, ⟨am, hd, by rw [al, l]⟩, ot, hb⟩
  unfold updateRegions
  rw [if_pos ⟨h0, hne, hn⟩, e]

example : ∃ r : Region, r.Inside clArg8.size ∧ r.value = some [40, 41] := ⟨⟨6, 2, some [40, 41]⟩, ⟨_, rfl, by decide⟩, rfl⟩

private theorem loop_true {o : Cl} {a : ClArg.Argument} {b : Nat} (am : a.mem = some b) :
    ∀ (rs : List Region) (s s' : Sys) (d : Bytes), s.dev b = some d → a.size = d.length →
    regionsLoop o a s rs = .ok (true, s') → ∀ r ∈ rs, r.Inside a.size := by
  intro rs
  induction rs with
  | nil =>
    intro _ _ _ _ _ _ r hr
    simp at hr
  | cons r rs ih =>
    intro s s' d hd al e
    unfold regionsLoop at e
    split at e
    · simp at e
    · rename_i v hv
      split at e
      · simp at e
      · rename_i hc
        unfold readFirst at e
        split at e
        · rename_i hlv
          simp only [Res.ok_bind] at e
          generalize hw : enqueueWrite o s a.mem r.offset (v.take r.length) = w at e
          obtain ⟨t, s1⟩ := w
          cases t
          · simp at e
          · obtain ⟨b', d', am', hd', h0, hl, _, es⟩ := enqueueWrite_true hw
            rw [am] at am'
            cases am'
            rw [hd] at hd'
            cases hd'
            have lv : (v.take r.length).length = r.length := by
              rw [List.length_take]
              omega
            intro q hq
            rcases List.mem_cons.mp hq with rfl | hq
            · exact ⟨v, hv, by omega, hlv, by omega⟩
            · refine ih s1 s' (d.take r.offset ++ v.take r.length ++ d.drop (r.offset + (v.take r.length).length))
                (by rw [es]; simp [Sys.put]) ?_ e q hq
              rw [List.length_append, List.length_append, List.length_take, List.length_drop, lv]
              omega
        · simp at e

/-- An update that succeeds has had regions inside of the argument only, even if the sum of offset and length does not fit
into 64 bits. -/
theorem C94_regions_inside {o : Cl} {s s' : Sys} {a : ClArg.Argument} {b : Nat} {d : Bytes} (ha : HasMemory s a b d)
    {rs : List Region} (h : updateRegions o s a rs = .ok (true, s')) : rs ≠ [] ∧ ∀ r ∈ rs, r.Inside a.size := by
  unfold updateRegions at h
  split at h
  · rename_i hc
    exact ⟨hc.2.1, loop_true ha.1 rs s s' d ha.2.1 ha.2.2 h⟩
  · simp at h

example : ∃ s', updateRegions clFine clNormal clArg8 [⟨6, 2, some [40, 41]⟩] = .ok (true, s') := by
  obtain ⟨s', _, e, _⟩ := C94_regions (o := clFine) rfl (s := clNormal) (by decide +kernel) (clArg8_memory _) (by decide)
    (by decide) (rs := [⟨6, 2, some [40, 41]⟩]) (by decide) (by
      intro r hr
      rw [List.mem_singleton] at hr
      rw [hr]
      exact ⟨_, rfl, by decide⟩)
  exact ⟨s', e⟩

/-- What an update leaves in the memory `b`, and whether it succeeds. -/
def regionSeen (r : Res (Bool × Sys)) (b : Nat) : Option (Bool × Option Bytes) :=
  match r with
  | .ok (t, s) => some (t, s.dev b)
  | .ub => none

/-- **C94 (an update that fails changes nothing), violated**: the regions before the bad one have been written. -/
theorem C94_regions_violated :
    regionSeen (updateRegions clFine clNormal clArg8 [⟨0, 2, some [40, 41]⟩, ⟨7, 2, some [50, 51]⟩]) 3 =
      some (false, some [40, 41, 3, 4, 5, 6, 7, 8]) := by
  decide +kernel

/-! ## Another context -/

/-- An argument with memory stays with its context. -/
theorem C94_attach (o : Cl) {s : Sys} {a : ClArg.Argument} {b : Nat} {d : Bytes} (ha : HasMemory s a b d)
    (h0 : 0 < a.size) (mine new : Option Nat) : attachTo o s a mine new = (false, mine) := by
  obtain ⟨am, ad, al⟩ := ha
  unfold attachTo
  rw [am]
  simp only [ad, Option.map_some, Option.getD_some]
  rw [if_neg]
  rintro ⟨_, _, h⟩
  omega

example : 0 < clArg8.size := by decide

/-- An argument without memory gets another context if OpenCL says that nothing has the size 0. -/
theorem C94_attach_empty (o : Cl) (s : Sys) (mine : Option Nat) (new : Nat) (h : mine ≠ some new) :
    attachTo o s ⟨none, none, 0⟩ mine (some new) =
      if o.sizeOfNothing = 0 then (true, some new) else (false, mine) := by
  unfold attachTo
  by_cases hz : o.sizeOfNothing = 0 <;> simp [h, hz]

example : (some 1 : Option Nat) ≠ some 2 := by decide

end SixTrack
