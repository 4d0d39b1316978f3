import Verif.Props.ClArgumentRaw

/-!
# C94: arguments of OpenCL kernels, what a success means
-/

namespace SixTrack

open SixTrack.Arg (Bytes Fmt Host Loc hostRemap readFirst overwrite)
open SixTrack.ClArg
open SixTrack.ClContext (Ctx Kernel ClVal make)

private theorem andThen_zero {r : Res (Int × Sys)} {g : Sys → Res (Int × Sys)} {t : Sys} (h : andThen r g = .ok (0, t)) :
    ∃ s, r = .ok (0, s) ∧ g s = .ok (0, t) := by
  unfold andThen at h
  obtain ⟨⟨c, s⟩, hr, h⟩ := Res.bind_eq_ok.mp h
  simp only at h
  by_cases hc : c = 0
  · subst hc
    rw [if_pos rfl] at h
    exact ⟨s, hr, h⟩
  · rw [if_neg hc] at h
    cases h
    exact absurd rfl hc

/-- Writing a buffer succeeds only if there is a node, a remapping kernel with at least two arguments and memory for the
buffer, if both transfers to the device and the launch succeed, and with the kernel for debugging, if its status can be read.
The argument refers to the buffer then; its memory and its size are as before. -/
theorem C94_success {f : Fmt} {o : Cl} {s s' : Sys} {a a' : ClArg.Argument} {h : Host} {i : Nat}
    (e : writeBuf f o s a h i = .ok (0, s', a')) :
    s.ctx.hasNode = true ∧ s.ctx.hasRemapKernel = true ∧ 0 < h.size i ∧ h.size i ≤ a.size ∧
      2 ≤ s.ctx.kernelNumArgs s.ctx.remapKernelId ∧ a.mem.isSome = true ∧ o.flagWrites = true ∧ o.writes = true ∧
      o.run.ok = true ∧ (2 < s.ctx.kernelNumArgs s.ctx.remapKernelId → o.flagReads = true) ∧
      a' = { a with buf := some i } := by
  unfold writeBuf at e
  by_cases hc : s.ctx.hasNode ∧ s.ctx.hasRemapKernel ∧ 0 < h.size i ∧ h.size i ≤ a.size
  · rw [if_pos hc] at e
    obtain ⟨x, hx, e⟩ := Res.bind_eq_ok.mp e
    obtain ⟨⟨c, t⟩, hr, e⟩ := Res.bind_eq_ok.mp e
    simp only at e
    by_cases h0 : c = 0
    · subst h0
      rw [if_pos rfl] at e
      cases e
      unfold sendSteps at hr
      simp only at hr
      by_cases hn : 0 < s.ctx.kernelNumArgs s.ctx.remapKernelId
      · rw [if_pos hn] at hr
        obtain ⟨s3, hr, h4⟩ := andThen_zero hr
        obtain ⟨s2, hr, h3⟩ := andThen_zero hr
        obtain ⟨s1, h1, h2⟩ := andThen_zero hr
        have g1 : 2 ≤ s.ctx.kernelNumArgs s.ctx.remapKernelId ∧ o.flagWrites = true := by
          unfold clearFlags at h1
          by_cases q : 2 ≤ s.ctx.kernelNumArgs s.ctx.remapKernelId
          · rw [if_pos q] at h1
            by_cases q' : o.flagWrites = true
            · exact ⟨q, q'⟩
            · rw [if_neg q'] at h1
              cases h1
          · rw [if_neg q] at h1
            cases h1
        have g2 : a.mem.isSome = true ∧ o.writes = true := by
          unfold sendBytes at h2
          generalize hw : enqueueWrite o s1 a.mem 0 x = w at h2
          obtain ⟨b, t'⟩ := w
          cases b
          · cases h2
          · obtain ⟨b, _, hb, _, _, _, ho, _⟩ := enqueueWrite_true hw
            rw [hb]
            exact ⟨rfl, ho⟩
        have g3 : o.run.ok = true := by
          unfold runRemap at h3
          obtain ⟨⟨b, t'⟩, hl, h3⟩ := Res.bind_eq_ok.mp h3
          cases b
          · cases h3
          · unfold launch ClRun.runDefault ClRun.runKernel at hl
            cases hok : o.run.ok
            · rw [hok] at hl
              by_cases hk : s.ctx.remapKernelId < s2.ctx.kernels.length
              · rw [if_pos hk] at hl
                cases ht : o.run.times <;> rw [ht] at hl <;> simp at hl
              · rw [if_neg hk] at hl
                simp at hl
            · rfl
        refine ⟨hc.1, hc.2.1, hc.2.2.1, hc.2.2.2, g1.1, g2.1, g1.2, g2.2, g3, ?_, rfl⟩
        intro q
        unfold lookAtFlags at h4
        rw [if_pos q] at h4
        by_cases q' : o.flagReads = true
        · exact q'
        · rw [if_neg q'] at h4
          cases h4
      · rw [if_neg hn] at hr
        cases hr
    · rw [if_neg h0] at e
      cases e
      exact absurd rfl h0
  · rw [if_neg hc] at e
    cases e

example : ∃ s' a', writeBuf toyFmt clFine clDebug clArg8 toyHost 0 = .ok (0, s', a') := by
  obtain ⟨s', _, e, _⟩ := C94_write toy_images.1 clFine_works clDebug_remaps (clArg8_memory _)
    (toyHost_image 0 (by decide)) (by decide) (by decide)
  exact ⟨s', _, e⟩

/-- Reading into a buffer succeeds only if the transfer does, and if the image is for the address of the buffer already or
can be remapped to it. -/
theorem C94_read_success {f : Fmt} {o : Cl} {s : Sys} {a a' : ClArg.Argument} {h h' : Host} {i : Nat}
    (e : readBuf f o s a h i = .ok (0, h', a')) :
    s.ctx.hasNode = true ∧ o.reads = true ∧ a' = { a with buf := some i } ∧
      ∃ b d, a.mem = some b ∧ s.dev b = some d ∧ 0 < a.size ∧ a.size ≤ d.length ∧
        a.size ≤ (h.mem (.buf i)).length ∧
        let y := d.take a.size ++ (h.mem (.buf i)).drop a.size
        (f.base y = h.addr (.buf i) ∧ h'.mem (.buf i) = y ∨
          f.base y ≠ h.addr (.buf i) ∧ f.rebase (h.addr (.buf i)) y = some (h'.mem (.buf i)) ∧
            h'.size i = f.len (h'.mem (.buf i))) := by
  unfold readBuf at e
  by_cases hc : s.ctx.hasNode ∧ 0 < a.size ∧ a.size ≤ (h.mem (.buf i)).length
  · rw [if_pos hc] at e
    cases hx : enqueueRead o s a.mem a.size with
    | none =>
      rw [hx] at e
      cases e
    | some x =>
      obtain ⟨b, d, hb, hd, h0, hl, ho, ex⟩ := enqueueRead_some hx
      rw [hx] at e
      simp only at e
      have lx : x.length = a.size := by
        rw [ex, List.length_take]
        omega
      unfold overwrite at e
      rw [lx, if_pos hc.2.2] at e
      simp only [Res.ok_bind] at e
      unfold hostRemap at e
      simp only [Host.put, if_true] at e
      subst ex
      by_cases hbase : f.base (d.take a.size ++ (h.mem (.buf i)).drop a.size) = h.addr (.buf i)
      · rw [if_pos hbase] at e
        cases e
        exact ⟨hc.1, ho, rfl, b, d, hb, hd, h0, hl, hc.2.2, .inl ⟨hbase, by simp⟩⟩
      · rw [if_neg hbase] at e
        cases hr : f.rebase (h.addr (.buf i)) (d.take a.size ++ (h.mem (.buf i)).drop a.size) with
        | none =>
          rw [hr] at e
          cases e
        | some z =>
          rw [hr] at e
          cases e
          refine ⟨hc.1, ho, rfl, b, d, hb, hd, h0, hl, hc.2.2, .inr ⟨hbase, ?_, ?_⟩⟩
          · simp [Host.setSize, hr]
          · simp [Host.setSize]
  · rw [if_neg hc] at e
    cases e

example : ∃ s' a' h' a'', writeBuf toyFmt clFine clNormal clArg8 toyHost 0 = .ok (0, s', a') ∧
    readBuf toyFmt clFine s' a' toyHost 1 = .ok (0, h', a'') := by
  obtain ⟨s', a', e, h'', w, r, _⟩ := C94_round_trip toy_images.1 clFine_works clNormal_remaps
    (clArg8_memory _) (toyHost_image 0 (by decide)) (by decide) (by decide) (h' := toyHost) (j := 1) (by decide)
    (by decide) (by decide)
  exact ⟨s', a', h'', _, e, r⟩

/-- Transfers of raw memory succeed only if OpenCL's do, with a node and just the size; one that fails does nothing. -/
theorem C94_raw_success {o : Cl} {s s' : Sys} {a : ClArg.Argument} {h h' : Host} {p n : Nat} {t : Bool} :
    (writeRaw o s a h p n = .ok (t, s') →
      (t = true → o.writes = true ∧ s.ctx.hasNode = true ∧ 0 < n ∧ n = a.size ∧ a.mem.isSome = true) ∧
        (t = false → s' = s)) ∧
    (readRaw o s a h p n = .ok (t, h') →
      (t = true → o.reads = true ∧ s.ctx.hasNode = true ∧ 0 < n ∧ n = a.size ∧ a.mem.isSome = true) ∧
        (t = false → h' = h)) := by
  constructor
  · intro e
    unfold writeRaw at e
    by_cases hc : 0 < n ∧ n = a.size ∧ s.ctx.hasNode
    · rw [if_pos hc] at e
      obtain ⟨x, _, e⟩ := Res.bind_eq_ok.mp e
      have e := Res.ok.inj e
      constructor
      · rintro rfl
        obtain ⟨b, _, hb, _, _, _, ho, _⟩ := enqueueWrite_true e
        exact ⟨ho, hc.2.2, hc.1, hc.2.1, by rw [hb]; rfl⟩
      · rintro rfl
        exact enqueueWrite_false e
    · rw [if_neg hc] at e
      cases e
      exact ⟨by simp, fun _ => rfl⟩
  · intro e
    unfold readRaw at e
    by_cases hc : 0 < n ∧ n = a.size ∧ s.ctx.hasNode
    · rw [if_pos hc] at e
      cases hx : enqueueRead o s a.mem n with
      | none =>
        rw [hx] at e
        cases e
        exact ⟨by simp, fun _ => rfl⟩
      | some x =>
        obtain ⟨b, _, hb, _, _, _, ho, _⟩ := enqueueRead_some hx
        rw [hx] at e
        obtain ⟨y, _, e⟩ := Res.bind_eq_ok.mp e
        cases e
        exact ⟨fun _ => ⟨ho, hc.2.2, hc.1, hc.2.1, by rw [hb]; rfl⟩, by simp⟩
    · rw [if_neg hc] at e
      cases e
      exact ⟨by simp, fun _ => rfl⟩

/-- both outcomes occur -/
example : (∃ s', writeRaw clFine clNormal clArg8 tightHost 2 8 = .ok (true, s')) ∧
    writeRaw clFine clNormal clArg8 tightHost 2 7 = .ok (false, clNormal) := by
  obtain ⟨s', e, _⟩ := C94_raw clFine_works (s := clNormal) (by decide +kernel) (clArg8_memory _) (by decide)
    (h := tightHost) (h' := tightHost) (p := 2) (q := 1) (by decide) (by decide)
  exact ⟨⟨s', e⟩, (C94_raw_refused _ _ _ _ _ _ (by decide)).1⟩

/-- An argument made from raw memory has its bytes; without a node, a remapping kernel or a size it is empty. -/
theorem C94_new_raw {o : Cl} (s : Sys) {h : Host} {p n : Nat} :
    (∀ b, o.alloc n = some b → o.writes = true → 0 < n → s.ctx.hasNode = true → s.ctx.hasRemapKernel = true →
      n ≤ (h.mem (.raw p)).length → ∃ s', newRaw o s h p n = .ok (s', ⟨some b, none, n⟩) ∧
        s'.dev b = some ((h.mem (.raw p)).take n) ∧ s'.ctx = s.ctx ∧ ∀ k, k ≠ b → s'.dev k = s.dev k) ∧
    (n = 0 ∨ s.ctx.hasNode = false ∨ s.ctx.hasRemapKernel = false → newRaw o s h p n = .ok (s, ⟨none, none, 0⟩)) := by
  constructor
  · intro b hb hw h0 h1 h2 hl
    have lx : ((h.mem (.raw p)).take n).length = n := by
      rw [List.length_take]
      omega
    unfold newRaw
    rw [if_pos ⟨h0, h1, h2⟩]
    unfold allocate readFirst
    rw [hb, if_pos hl]
    simp only [Res.ok_bind]
    rw [enqueueWrite_ok (d := (List.range n).map o.junk) hw (by simp [Sys.put]) (by omega) (by simp)]
    refine ⟨_, rfl, ?_, rfl, ?_⟩
    · have hz : ((List.range n).map o.junk).drop (0 + ((h.mem (.raw p)).take n).length) = [] := by
        rw [lx]
        simp
      simp only [Sys.put, if_true, hz, List.take_zero, List.nil_append, List.append_nil]
    · intro k hk
      simp [Sys.put, hk]
  · intro hc
    unfold newRaw
    rw [if_neg]
    · rfl
    · rintro ⟨h0, h1, h2⟩
      rcases hc with h | h | h
      · omega
      · simp [h] at h1
      · simp [h] at h2

example : clFine.alloc 8 = some 5 ∧ clFine.writes = true ∧ 8 ≤ (tightHost.mem (.raw 1)).length := by decide

/-- An argument from an empty buffer, without a node or without a remapping kernel is empty, and nothing is written. -/
theorem C94_new_empty (f : Fmt) (o : Cl) (s : Sys) (h : Host) (i : Nat)
    (hc : h.size i = 0 ∨ s.ctx.hasNode = false ∨ s.ctx.hasRemapKernel = false) :
    newBuf f o s h i = .ok (none, s, ⟨none, none, 0⟩) := by
  unfold newBuf
  rw [if_neg]
  · rfl
  · rintro ⟨h0, h1, h2⟩
    rcases hc with h | h | h
    · omega
    · simp [h] at h1
    · simp [h] at h2

example : (clSys (make clTwo clNodes)).ctx.hasNode = false := by decide +kernel

/-- Without regions, without a size or without a node nothing is updated, and that is a failure. -/
theorem C94_regions_refused (o : Cl) (s : Sys) (a : ClArg.Argument) (rs : List Region)
    (hc : rs = [] ∨ a.size = 0 ∨ s.ctx.hasNode = false) : updateRegions o s a rs = .ok (false, s) := by
  unfold updateRegions
  rw [if_neg]
  rintro ⟨h0, h1, h2⟩
  rcases hc with h | h | h
  · exact h1 h
  · omega
  · simp [h] at h2

example : ([] : List Region) = [] := rfl

/-- No context and the context it has are refused. -/
theorem C94_attach_refused (o : Cl) (s : Sys) (a : ClArg.Argument) (mine : Option Nat) :
    attachTo o s a mine none = (false, mine) ∧ attachTo o s a mine mine = (false, mine) := by
  unfold attachTo
  simp

example : (attachTo clFine clNormal ⟨none, none, 0⟩ (some 1) (some 2)).1 = true := by decide +kernel

end SixTrack
